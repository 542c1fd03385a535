import Verif.Props.Reorder

/-! C97: putting in shapes puts in their paths and nothing else. -/

set_option linter.unusedSectionVars false

namespace GoSvg

open Spec

section Generic

variable {F : Type} [GoFloat F] [GoEnv]

/-- What follows does not depend on what was left behind. -/
theorem rest_alone {fuel : Nat} {m : ErrorMode} {pre post : List Token} {c : Cursor F} (hpre : readTokens fuel pre (initCursor m) = (.ok (), c))
    (ho : Pointed post) (hu : NoUse post ∨ Pointed pre) (k : Past F) : ∃ q : PathCursor F, readTokens fuel post (c.fresh.behind k) =
      ((readTokens fuel post c.fresh).1, (readTokens fuel post c.fresh).2.behind (k.read q)) := by
  rcases hu with hu | hu
  · refine readTokens_alone fuel post (fun t htm => ?_) c.fresh k
    cases t with
    | start name at' => exact ⟨fun he => hu at' (he ▸ htm), ho name at' htm⟩
    | stop name => trivial
    | chars x => trivial
    | other => trivial
  · have hc := readTokens_pointed fuel pre (pointed_toks hu) (defsQ_init PointedDef m (F := F))
    rw [hpre] at hc
    exact readTokens_aloneP fuel post (pointed_toks ho) c.fresh k ⟨hc.defs, hc.current⟩

/-- C97, the other direction, partial: a document `pre ++ post` is read without error, and so is `pre` with groups and shapes behind it,
within the root and outside of `defs`, masks and texts. Then the document with these between `pre` and `post` is read without error,
too. Its drawing is that of the document with the paths of these groups and shapes between those of `pre` and those of `post`.

Missing: shapes with a mask of their own. Polylines and polygons have to have points. -/
theorem C97_insert_partial {fuel : Nat} {m : ErrorMode} {pre body post : List Token} {ch : List Elem}
    {sb s : Svg F} {lb l : List Msg} (ht : Tidy (pre ++ post)) (hch : openFrom [] pre = some ch)
    (hroot : ch ≠ []) (hplace : ∀ n ∈ ["defs", "mask", "title", "desc"], inside n ch = false)
    (hbody : openFrom [] body = some []) (hdraw : DrawingOnly body) (hpb : Pointed body) (ho : Pointed post) (hu : NoUse post ∨ Pointed pre)
    (hb : parse fuel m (pre ++ body) .eof = .done (some sb) none lb) (h : parse fuel m (pre ++ post) .eof = .done (some s) none l) :
    ∃ (s0 : Svg F) (P B : List (SvgPath F)) (X Y Z : List Msg), P.length ≤ body.countP Token.isStart ∧
      parse fuel m pre .eof = .done (some s0) none X ∧
      sb.svgPaths = s0.svgPaths ++ P ∧ lb = X ++ Y ∧ s.svgPaths = s0.svgPaths ++ B ∧ l = X ++ Z ∧
      parse fuel m (pre ++ (body ++ post)) .eof = .done (some { s with svgPaths := s0.svgPaths ++ P ++ B }) none (X ++ Y ++ Z) := by
  have hseen : pre.any Token.isStart = true := by
    rcases open_any hch with h | h
    · exact absurd (List.length_eq_zero_iff.1 (Nat.le_zero.1 h)) hroot
    · exact h
  have hany : ∀ ts : List Token, (pre ++ ts).any Token.isStart = true := fun ts => by rw [List.any_append, hseen]; rfl
  obtain ⟨c', hr, hs⟩ := parse_ok h
  have hl : l = c'.pc.log := by
    rw [parse_done (hany _) hr] at h
    injection h with _ _ h
    exact h.symm
  obtain ⟨cb, hrb, hsb⟩ := parse_ok hb
  have hlb : lb = cb.pc.log := by
    rw [parse_done (hany _) hrb] at hb
    injection hb with _ _ hb
    exact hb.symm
  obtain ⟨c, hpre, hpost⟩ := read_split hr
  obtain ⟨c2, hpre2, h1⟩ := read_split hrb
  rw [hpre] at hpre2
  obtain rfl := (Prod.mk.inj hpre2).2
  obtain ⟨ch1, hch1, hrest⟩ := tidy_split (F := F) ht
  rw [hch] at hch1
  cases hch1
  have hj := (hrest (· = .color) fuel m c (tokensOK_color _) hpre).tidy.flags
  have hp : c.pc.path = [] := by
    have := readTokens_clean fuel pre (initCursor (F := F) m) rfl (by rw [hpre]; trivial)
    rwa [hpre] at this
  obtain ⟨P, Y, hP, ea⟩ := body_adds hdraw hpb hbody (hj.inDefs.trans (hplace _ (by decide)))
    (hj.inMask.trans (by rw [hplace "mask" (by decide)]; rfl)) (hj.inTitle.trans (by rw [hplace "title" (by decide)]; rfl))
    (hj.inDesc.trans (by rw [hplace "desc" (by decide)]; rfl)) hp (k0 := ⟨c.svg.svgPaths, c.pc.log, c.pc⟩) (by rw [← fresh_behind, h1])
  obtain ⟨q1, e1⟩ := ea ⟨c.svg.svgPaths, c.pc.log, c.pc⟩
  rw [← fresh_behind, h1] at e1
  obtain rfl := (Prod.mk.inj e1).2
  obtain ⟨q2, e2⟩ := rest_alone hpre ho hu ⟨c.svg.svgPaths, c.pc.log, c.pc⟩
  obtain ⟨q3, e3⟩ := rest_alone hpre ho hu ⟨c.svg.svgPaths ++ P, c.pc.log ++ Y, q1⟩
  rw [← fresh_behind, hpost] at e2
  obtain ⟨hok, rfl⟩ := Prod.mk.inj e2
  rw [← hok] at e3
  have hfin : readTokens fuel (pre ++ (body ++ post)) (initCursor m) = (.ok (), (readTokens fuel post c.fresh).2.behind
      (Past.read ⟨c.svg.svgPaths ++ P, c.pc.log ++ Y, q1⟩ q3)) := by
    rw [readTokens_append, SM.bind_run, hpre]
    dsimp only
    rw [readTokens_append, SM.bind_run, h1]
    exact e3
  refine ⟨c.svg, P, (readTokens fuel post c.fresh).2.svg.svgPaths, c.pc.log, Y, (readTokens fuel post c.fresh).2.pc.log, hP,
    parse_done hseen hpre, ?_, ?_, by rw [← hs]; rfl, hl, ?_⟩
  · rw [← hsb]
    show (c.svg.svgPaths ++ P) ++ [] = _
    rw [List.append_nil]
  · rw [hlb]
    show (c.pc.log ++ Y) ++ [] = _
    rw [List.append_nil]
  · rw [parse_done (hany _) hfin, ← hs]
    rfl

end Generic

section Examples

attribute [local instance] asciiEnv
attribute [local instance] dummyLibm

set_option maxRecDepth 100000 in
/-- The hypotheses of `C97_insert_partial`, beside those shown for `C97_shapes_partial`: the document of `alone_example`. -/
theorem insert_example : Tidy (alonePre ++ alonePost) ∧
    (match parse (F := F64) 8 .warn (alonePre ++ aloneBody) .eof, parse (F := F64) 8 .warn (alonePre ++ alonePost) .eof with
    | .done (some s) none l, .done (some s') none l' => decide (s.svgPaths.length = 3 ∧ s'.svgPaths.length = 3 ∧ l.length = 1 ∧ l' = [])
    | _, _ => false) = true := ⟨⟨by decide, by decide, .inr (by decide)⟩, by decide +kernel⟩

theorem insert_pointed : Pointed aloneBody := fun name attrs h hn => by
  have key : ∀ t ∈ aloneBody, (match t with
      | .start n attrs => decide (n = "polyline".toList ∨ n = "polygon".toList → attrs = attrsOf [("points", "0 0 1 0 0 1")])
      | _ => true) = true := by decide
  exact ⟨"0 0 1 0 0 1".toList, by rw [of_decide_eq_true (key _ h) hn]; exact List.mem_singleton.2 rfl⟩

end Examples

end GoSvg
