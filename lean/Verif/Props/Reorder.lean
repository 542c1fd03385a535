import Verif.Props.Alone

/-! C98: the order of the shapes is the order of the paths, and nothing else. -/

set_option linter.unusedSectionVars false

namespace GoSvg

open Spec

section Generic

variable {F : Type} [GoFloat F] [GoEnv]

/-- The cursor without paths and messages. -/
def Cursor.fresh (c : Cursor F) : Cursor F := { c with pc := { c.pc with log := [] }, svg := { c.svg with svgPaths := [] } }

theorem fresh_behind (c : Cursor F) : c = c.fresh.behind ⟨c.svg.svgPaths, c.pc.log, c.pc⟩ := by
  simp only [Cursor.fresh, Cursor.behind, List.append_nil]

/-- What groups and shapes add does not depend on what was left behind. -/
theorem body_adds {fuel : Nat} {body : List Token} {c : Cursor F} (hdraw : DrawingOnly body) (hp : Pointed body) (hbody : openFrom [] body = some [])
    (hd : c.inDefs = false) (hk : c.inMask = false) (hi : c.inTitleText = false) (hj : c.inDescText = false) (h0 : c.pc.path = []) {k0 : Past F}
    (hok : (readTokens fuel body (c.fresh.behind k0)).1 = .ok ()) :
    ∃ (P : List (SvgPath F)) (Y : List Msg), P.length ≤ body.countP Token.isStart ∧ ∀ k : Past F, ∃ q : PathCursor F,
      readTokens fuel body (c.fresh.behind k) = (.ok (), c.fresh.behind ⟨k.paths ++ P, k.log ++ Y, q⟩) := by
  have hal : Alone (readTokens fuel body : CM F Unit) := readTokens_alone fuel body fun t ht => by
    cases t with
    | start name attrs =>
      refine ⟨fun he => ?_, hp name attrs ht⟩
      rcases plain_mem (hdraw name attrs ht).1 with h | h <;> rw [he] at h <;> exact absurd h (by decide)
    | stop name => trivial
    | chars x => trivial
    | other => trivial
  obtain ⟨q0, e0⟩ := hal c.fresh k0
  rw [e0] at hok
  rcases hr : readTokens fuel body c.fresh with ⟨r, c1⟩
  rw [hr] at hok
  cases hok
  obtain ⟨P, Y, q, E', hP, hE, e1⟩ := body_run body [] [] c.fresh c1 [] c.styleStack hdraw (fun _ h => nomatch h) hbody hd hk hi hj h0 rfl rfl hr
  obtain rfl := List.length_eq_zero_iff.1 hE
  refine ⟨P, Y, hP, fun k => ?_⟩
  obtain ⟨q1, e⟩ := hal c.fresh k
  rw [hr] at e
  refine ⟨q1, e.trans ?_⟩
  rw [e1]
  simp only [Cursor.fresh, Cursor.past, Cursor.behind, Past.read, List.nil_append, List.append_nil]

/-- C98, partial: behind `pre`, within the root and outside of `defs`, masks and texts, stand first the groups and shapes of `a` and then
those of `b`, and the document is read without error. Then it is also read without error with `b` before `a`. The drawing is the
same, but for the paths of `a` and of `b`, which have changed places, and so have the messages about them.

Missing: shapes with a mask of their own. Polylines and polygons have to have points. -/
theorem C98_order_partial {fuel : Nat} {m : ErrorMode} {pre a b post : List Token} {ch : List Elem}
    {s : Svg F} {l : List Msg} (ht : Tidy (pre ++ (a ++ (b ++ post)))) (hch : openFrom [] pre = some ch)
    (hroot : ch ≠ []) (hplace : ∀ n ∈ ["defs", "mask", "title", "desc"], inside n ch = false)
    (ha : openFrom [] a = some []) (hb : openFrom [] b = some []) (hda : DrawingOnly a) (hdb : DrawingOnly b)
    (hpa : Pointed a) (hpb : Pointed b) (ho : Pointed post) (hu : NoUse post ∨ Pointed pre)
    (h : parse fuel m (pre ++ (a ++ (b ++ post))) .eof = .done (some s) none l) :
    ∃ (s0 sa : Svg F) (Pa Pb B : List (SvgPath F)) (X Ya Yb Z : List Msg),
      parse fuel m pre .eof = .done (some s0) none X ∧
      parse fuel m (pre ++ a) .eof = .done (some sa) none (X ++ Ya) ∧ sa.svgPaths = s0.svgPaths ++ Pa ∧
      Pb.length ≤ b.countP Token.isStart ∧
      s.svgPaths = s0.svgPaths ++ Pa ++ Pb ++ B ∧ l = X ++ Ya ++ Yb ++ Z ∧
      parse fuel m (pre ++ (b ++ (a ++ post))) .eof =
        .done (some { s with svgPaths := s0.svgPaths ++ Pb ++ Pa ++ B }) none (X ++ Yb ++ Ya ++ Z) := by
  have hseen : pre.any Token.isStart = true := by
    rcases open_any hch with h | h
    · exact absurd (List.length_eq_zero_iff.1 (Nat.le_zero.1 h)) hroot
    · exact h
  have hany : ∀ ts : List Token, (pre ++ ts).any Token.isStart = true := fun ts => by rw [List.any_append, hseen]; rfl
  obtain ⟨c', hr, hs⟩ := parse_ok h
  have hl : l = c'.pc.log := by
    rw [parse_done (hany _) hr] at h
    injection h with _ _ h
    exact h.symm
  obtain ⟨c, hpre, hr2⟩ := read_split hr
  obtain ⟨c1, h1, hr3⟩ := read_split hr2
  obtain ⟨c2, h2, hpost⟩ := read_split hr3
  obtain ⟨ch1, hch1, hrest⟩ := tidy_split (F := F) ht
  rw [hch] at hch1
  cases hch1
  have hj := (hrest (· = .color) fuel m c (tokensOK_color _) hpre).tidy.flags
  have hp : c.pc.path = [] := by
    have := readTokens_clean fuel pre (initCursor (F := F) m) rfl (by rw [hpre]; trivial)
    rwa [hpre] at this
  have f1 := hj.inDefs.trans (hplace _ (by decide))
  have f2 : c.inMask = false := hj.inMask.trans (by rw [hplace "mask" (by decide)]; rfl)
  have f3 : c.inTitleText = false := hj.inTitle.trans (by rw [hplace "title" (by decide)]; rfl)
  have f4 : c.inDescText = false := hj.inDesc.trans (by rw [hplace "desc" (by decide)]; rfl)
  obtain ⟨Pa, Ya, hPa, ea⟩ := body_adds hda hpa ha f1 f2 f3 f4 hp (k0 := ⟨c.svg.svgPaths, c.pc.log, c.pc⟩)
    (by rw [← fresh_behind, h1])
  obtain ⟨q1, e1⟩ := ea ⟨c.svg.svgPaths, c.pc.log, c.pc⟩
  have e1' := e1
  rw [← fresh_behind, h1] at e1
  obtain rfl := (Prod.mk.inj e1).2
  obtain ⟨Pb, Yb, hPb, eb⟩ := body_adds hdb hpb hb f1 f2 f3 f4 hp (by rw [h2])
  obtain ⟨q2, e2⟩ := eb ⟨c.svg.svgPaths ++ Pa, c.pc.log ++ Ya, q1⟩
  rw [h2] at e2
  obtain rfl := (Prod.mk.inj e2).2
  obtain ⟨q3, e3⟩ := eb ⟨c.svg.svgPaths, c.pc.log, c.pc⟩
  obtain ⟨q4, e4⟩ := ea ⟨c.svg.svgPaths ++ Pb, c.pc.log ++ Yb, q3⟩
  have hal : ∀ k : Past F, ∃ q : PathCursor F, readTokens fuel post (c.fresh.behind k) =
      ((readTokens fuel post c.fresh).1, (readTokens fuel post c.fresh).2.behind (k.read q)) := by
    intro k
    rcases hu with hu | hu
    · refine readTokens_alone fuel post (fun t htm => ?_) c.fresh k
      cases t with
      | start name at' => exact ⟨fun he => hu at' (he ▸ htm), ho name at' htm⟩
      | stop name => trivial
      | chars x => trivial
      | other => trivial
    · have hc := readTokens_pointed fuel pre (pointed_toks hu) (defsQ_init PointedDef m (F := F))
      rw [hpre] at hc
      exact readTokens_aloneP fuel post (pointed_toks ho) c.fresh k ⟨hc.defs, hc.current⟩
  obtain ⟨q5, e5⟩ := hal ⟨c.svg.svgPaths ++ Pa ++ Pb, c.pc.log ++ Ya ++ Yb, q2⟩
  obtain ⟨q6, e6⟩ := hal ⟨c.svg.svgPaths ++ Pb ++ Pa, c.pc.log ++ Yb ++ Ya, q4⟩
  rw [hpost] at e5
  obtain ⟨hok, rfl⟩ := Prod.mk.inj e5
  rw [← hok] at e6
  have ec := fresh_behind c
  have hfin : readTokens fuel (pre ++ (b ++ (a ++ post))) (initCursor m) = (.ok (), (readTokens fuel post c.fresh).2.behind
      (Past.read ⟨c.svg.svgPaths ++ Pb ++ Pa, c.pc.log ++ Yb ++ Ya, q4⟩ q6)) := by
    rw [readTokens_append, SM.bind_run, hpre]
    dsimp only
    rw [readTokens_append, SM.bind_run]
    conv_lhs => rw [ec]
    rw [e3]
    dsimp only
    rw [readTokens_append, SM.bind_run, e4]
    exact e6
  have hpa' : readTokens fuel (pre ++ a) (initCursor m) = (.ok (), c.fresh.behind ⟨c.svg.svgPaths ++ Pa, c.pc.log ++ Ya, q1⟩) := by
    rw [readTokens_append, SM.bind_run, hpre]
    exact h1
  refine ⟨c.svg, (c.fresh.behind ⟨c.svg.svgPaths ++ Pa, c.pc.log ++ Ya, q1⟩).svg, Pa, Pb, (readTokens fuel post c.fresh).2.svg.svgPaths,
    c.pc.log, Ya, Yb, (readTokens fuel post c.fresh).2.pc.log, parse_done hseen hpre, ?_, ?_, hPb, by rw [← hs]; rfl, hl, ?_⟩
  · rw [parse_done (hany _) hpa']
    show Outcome.done _ none ((c.pc.log ++ Ya) ++ []) = _
    rw [List.append_nil]
  · show (c.svg.svgPaths ++ Pa) ++ [] = _
    rw [List.append_nil]
  · rw [parse_done (hany _) hfin, ← hs]
    rfl

end Generic

section Examples

attribute [local instance] asciiEnv
attribute [local instance] dummyLibm

/-- A group and a rectangle. -/
def reorderA : List Token := elem "g" [("fill-rule", "odd")] (.chars "x".toList :: elem "path" [("d", "M0 0L3 3")])
def reorderB : List Token := elem "rect" [("x", "1"), ("width", "2"), ("height", "3")]

set_option maxRecDepth 100000 in
/-- C98 is not vacuous: a group and a rectangle, between a rectangle and a polyline, read in warn mode. -/
theorem reorder_example : openFrom [] reorderA = some [] ∧ openFrom [] reorderB = some [] ∧
    (match parse (F := F64) 8 .warn (alonePre ++ (reorderA ++ (reorderB ++ alonePost))) .eof,
      parse (F := F64) 8 .warn (alonePre ++ (reorderB ++ (reorderA ++ alonePost))) .eof with
    | .done (some s) none l, .done (some s') none l' => decide (s.svgPaths.length = 5 ∧ s'.svgPaths.length = 5 ∧ l.length = 1 ∧ l'.length = 1 ∧
        (s.svgPaths.take 3).map (·.path.length) = [5, 2, 5] ∧ (s'.svgPaths.take 3).map (·.path.length) = [5, 5, 2])
    | _, _ => false) = true := by decide +kernel

theorem reorder_tidy : Tidy (alonePre ++ (reorderA ++ (reorderB ++ alonePost))) := ⟨by decide, by decide, .inr (by decide)⟩

theorem reorder_drawing : DrawingOnly reorderA ∧ DrawingOnly reorderB ∧ Pointed reorderA ∧ Pointed reorderB := by
  have key : ∀ t ∈ reorderA ++ reorderB, (match t with
      | .start n attrs => decide ((n = "g".toList ∨ n = "path".toList ∨ n = "rect".toList) ∧ valuesOf "mask" attrs = [])
      | _ => true) = true := by decide +kernel
  have hd : DrawingOnly (reorderA ++ reorderB) := fun n attrs h => by
    obtain ⟨h1, h2⟩ := of_decide_eq_true (key _ h)
    refine ⟨?_, h2⟩
    rcases h1 with h | h | h
    · exact .inl h
    · exact .inr ⟨"path", by decide, h⟩
    · exact .inr ⟨"rect", by decide, h⟩
  have hp : Pointed (reorderA ++ reorderB) := fun n attrs h hn => by
    obtain ⟨h1, -⟩ := of_decide_eq_true (key _ h)
    rcases h1 with rfl | rfl | rfl <;> exact absurd hn (by decide)
  exact ⟨fun n a h => hd n a (List.mem_append_left _ h), fun n a h => hd n a (List.mem_append_right _ h),
    fun n a h => hp n a (List.mem_append_left _ h), fun n a h => hp n a (List.mem_append_right _ h)⟩

end Examples

end GoSvg
