import Verif.Props.Documents
import Verif.Props.ShapeAttrs
import Verif.Props.Transforms

/-! C58 for documents: the view box of the drawing is the one of the root element. -/

namespace GoSvg

open Spec

variable {F : Type} [GoFloat F] [GoEnv]

/-- C58 for whole documents, any arithmetic: the view box of the drawing comes from the attributes of the root alone. -/
theorem C58_document {fuel : Nat} {m : ErrorMode} {lead rest : List Token} {attrs : List Attr} {s : Svg F} {l : List Msg} (hl : NoTags lead)
    (hn : ∀ a, Token.start "svg".toList a ∉ rest)
    (h : parse (F := F) fuel m (lead ++ .start "svg".toList attrs :: rest) .eof = .done (some s) none l) (hd : Distinct attrs)
    {vb : Bounds F} (hvb : BoxAttr attrs vb) {W H : F} (hW : NumAttr attrs "width" W) (hH : NumAttr attrs "height" H) :
    s.viewBox = ⟨vb.x, vb.y, if GoFloat.eq vb.w (num 0) then W else vb.w, if GoFloat.eq vb.h (num 0) then H else vb.h⟩ := by
  obtain ⟨cf, hr, rfl⟩ := parse_ok h
  obtain ⟨c, h1, h2⟩ := read_split hr
  rw [noTags_run (F := F) fuel m lead hl] at h1
  cases h1
  rw [readTokens_cons] at h2
  obtain ⟨_, c0, q1, q2⟩ := bind_ok h2
  have d1 : DefsQ NoSvgDef c0 := by
    have := start_outside_defsQ fuel "svg".toList attrs (c := initCursor (F := F) m) rfl (defsQ_init NoSvgDef m)
    rwa [q1] at this
  rw [readTokens_box rest hn d1 q2]
  rw [readToken] at q1
  obtain ⟨_, c1, k1, k2⟩ := bind_ok q1
  have hs := pushStyle_same k1
  have := (C58_view_box (fuel := fuel) hd (c := c1) (by rw [hs.inDefs]; rfl) (by rw [hs.path]; rfl) hvb hW hH).2.2
  rwa [k2] at this

end GoSvg

namespace GoSvg

open Spec

section Examples

attribute [local instance] asciiEnv
attribute [local instance] dummyLibm

/-- A view box of four whole numbers, in exact arithmetic. -/
theorem boxAttr_nat {attrs : List Attr} {v : Str} (hg : Given attrs "viewBox" v) (l : GroupList) (hl : l.WF) (ht : l.text = v) {a b c d : ℚ}
    (hn : l.numbers.map Spelling.value = [a, b, c, d]) : BoxAttr attrs (⟨(a : ℝ), (b : ℝ), (c : ℝ), (d : ℝ)⟩ : Bounds ℝ) := by
  refine .inl ⟨v, hg, ?_⟩
  have := writes_real l hl
  rw [ht, show l.numbers.map (fun n => (n.value : ℝ)) = (l.numbers.map Spelling.value).map (fun q : ℚ => (q : ℝ)) by rw [List.map_map]; rfl, hn] at this
  exact this

set_option maxRecDepth 100000 in
/-- `viewBox="1 2 3 4"` with a width, and a group inside that says something else. -/
example : ∃ (s : Svg ℝ) (l : List Msg), parse (F := ℝ) 8 .strict ([] ++ .start "svg".toList (attrsOf [("viewBox", "1 2 3 4"), ("width", "6")]) ::
    (elem "g" [("width", "9"), ("viewBox", "5 5 5 5")] (elem "line" [("x2", "1")]) ++ [.stop "svg".toList])) .eof = .done (some s) none l ∧
      s.viewBox = ⟨1, 2, 3, 4⟩ := by
  have hp : (match parse (F := ℝ) 8 .strict ([] ++ .start "svg".toList (attrsOf [("viewBox", "1 2 3 4"), ("width", "6")]) ::
    (elem "g" [("width", "9"), ("viewBox", "5 5 5 5")] (elem "line" [("x2", "1")]) ++ [.stop "svg".toList])) .eof with
      | .done (some _) none _ => true | _ => false) = true := by decide +kernel
  split at hp
  · rename_i s l hs
    refine ⟨s, l, hs, ?_⟩
    have h6 : NumAttr (attrsOf [("viewBox", "1 2 3 4"), ("width", "6")]) "width" (6 : ℝ) := by
      refine .inl ⟨"6".toList, by decide, ?_⟩
      have hq : (GoFloat.parse (findUnit "6".toList).2 : Option ℝ) = some ((6 : ℚ) : ℝ) := by
        change (match parseLit (findUnit "6".toList).2 with
          | some (.fin neg q) => some (if neg then -(q : ℝ) else (q : ℝ))
          | _ => none) = _
        rw [parseLit_dec (q := 6) (neg := false) (by decide +kernel)]; rfl
      have hu : (findUnit "6".toList).1 = .px := by decide
      simp only [parseBasicFloat, parseUnit, hq, hu, toPx]
      norm_num
    rw [C58_document (by decide) (noSvg_of (by decide +kernel)) hs (by decide)
      (boxAttr_nat (v := "1 2 3 4".toList) (a := 1) (b := 2) (c := 3) (d := 4) (by decide)
        ⟨[int "" "1", int " " "2", int " " "3", int " " "4"], []⟩ (by decide +kernel) (by decide +kernel) (by decide +kernel))
      h6 (.inr ⟨not_given (by decide), rfl⟩)]
    simp
  · cases hp

/-- The view box of the example documents of `Props/Documents`. -/
theorem place_box {name : String} {attrs : List Attr} {s : Svg ℝ}
    (h : Parsed 8 .strict placeRoot placeCh name.toList attrs [] placeBody (placePost name) s) : s.viewBox = ⟨0, 0, 100, 50⟩ := by
  obtain ⟨l, hl⟩ := h.result
  rw [C58_document (attrs := placeRoot.attrs) (by decide) h.place.noSvg hl (by decide)
      (boxAttr_nat (v := "0 0 100 50".toList) (a := 0) (b := 0) (c := 100) (d := 50) (by decide)
        ⟨[int "" "0", int " " "0", int " " "100", int " " "50"], []⟩ (by decide +kernel) (by decide +kernel) (by decide +kernel))
      (.inr ⟨not_given (by decide), rfl⟩) (.inr ⟨not_given (by decide), rfl⟩)]
  simp

end Examples

end GoSvg
