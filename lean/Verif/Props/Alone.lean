import Verif.Spec.Alone
import Verif.Lemmas.AloneUse
import Verif.Lemmas.MaskNames
import Verif.Props.Places
import Verif.Props.Masks
import Verif.Props.PlainGroup

/-! C97: leaving out a shape leaves out its path and nothing else. -/

set_option linter.unusedSectionVars false

namespace GoSvg

open Spec

section Generic

variable {F : Type} [GoFloat F] [GoEnv]

theorem readStyleAttr_arrays {k : Str} (hk : k ≠ "mask".toList) (st : PathStyle F) (v : Str) (c : Cursor F) :
    (readStyleAttr st k v c).2.svg.arrays = c.svg.arrays := by
  rw [readStyleAttr_eff]
  cases he : styleEff c.svg st k v with
  | set r => rfl
  | warn m =>
    simp only [runEff]
    rw [SM.bind_run]
    have hp := handleError_svg m c
    generalize handleError m c = x at hp ⊢
    obtain ⟨r, d⟩ := x
    cases r <;> exact congrArg Svg.arrays hp
  | transform =>
    simp only [runEff]
    rw [SM.bind_run]
    have hp := parseTransform_svg v c
    generalize parseTransform (F := F) v c = x at hp ⊢
    obtain ⟨r, d⟩ := x
    cases r <;> exact congrArg Svg.arrays hp
  | mask => exact absurd (styleEff_mask.1 he) hk

theorem declLoop_arrays : ∀ (ds : List (Str × Str)), (∀ d ∈ ds, d.1 ≠ "mask".toList) → ∀ (st : PathStyle F) (c : Cursor F),
    (declLoop st ds c).2.svg.arrays = c.svg.arrays
  | [], _, _, _ => rfl
  | d :: ds, h, st, c => by
    rw [declLoop, SM.bind_run]
    have hp := readStyleAttr_arrays (h d List.mem_cons_self) st d.2 c
    generalize readStyleAttr st d.1 d.2 c = x at hp ⊢
    obtain ⟨r, c1⟩ := x
    cases r with
    | ok st' => exact (declLoop_arrays ds (fun d hd => h d (List.mem_cons_of_mem _ hd)) st' c1).trans hp
    | err e => exact hp
    | panic e => exact hp
    | diverge => exact hp

theorem plain_mem {n : Str} (h : GroupOrShape n) : n = "g".toList ∨ n ∈ shapeTags := by
  rcases h with h | ⟨s, hs, rfl⟩
  · exact .inl h
  · refine .inr ?_
    simp only [shapes, List.mem_cons, List.not_mem_nil, or_false] at hs
    rcases hs with rfl | rfl | rfl | rfl | rfl | rfl | rfl <;> decide

theorem plain_stop {n : Str} (hn : GroupOrShape n) {c : Cursor F} (hd : c.inDefs = false) {st : PathStyle F} {rest : List (PathStyle F)}
    (hs : c.styleStack = st :: rest) : readEndElement n c = (.ok (), { c with styleStack := rest }) := by
  unfold readEndElement
  rw [SM.bind_run, show popStyle c = (.ok (), { c with styleStack := rest }) by unfold popStyle; rw [hs]]
  dsimp only
  rw [SM.modify_run]
  rcases hn with rfl | ⟨s, hn, rfl⟩
  · rw [if_pos rfl]
    dsimp only
    rw [hd]
    rfl
  · simp only [shapes, List.mem_cons, List.not_mem_nil, or_false] at hn
    rcases hn with rfl | rfl | rfl | rfl | rfl | rfl | rfl <;> rfl

theorem plain_known {n : Str} (hn : GroupOrShape n) (fuel : Nat) : (drawFuncs (F := F) fuel (useF fuel) n).isSome = true := by
  rcases hn with rfl | ⟨s, hn, rfl⟩
  · rfl
  · simp only [shapes, List.mem_cons, List.not_mem_nil, or_false] at hn
    rcases hn with rfl | rfl | rfl | rfl | rfl | rfl | rfl <;> rfl

/-- The cursor `c` with the paths `P`, the messages `Y` and what `q` has left, and with another stack of styles. -/
def Cursor.past (c : Cursor F) (P : List (SvgPath F)) (Y : List Msg) (q : PathCursor F) (S : List (PathStyle F)) : Cursor F :=
  { c with
    pc := { q with path := c.pc.path, curX := c.pc.curX, curY := c.pc.curY, errorMode := c.pc.errorMode, log := c.pc.log ++ Y }
    svg := { c.svg with svgPaths := c.svg.svgPaths ++ P }
    styleStack := S }

/-- What the start tag of a group or shape does to the cursor: a path, messages, and what it leaves behind. -/
theorem plain_start {fuel : Nat} {n : Str} {attrs : List Attr} {c c1 : Cursor F} (hn : GroupOrShape n) (hm : valuesOf "mask" attrs = [])
    (hd : c.inDefs = false) (hk : c.inMask = false) (hp : c.pc.path = []) (h : readToken fuel (.start n attrs) c = (.ok (), c1)) :
    ∃ (P : List (SvgPath F)) (Y : List Msg) (q : PathCursor F) (st : PathStyle F), P.length ≤ 1 ∧ c1 = c.past P Y q (st :: c.styleStack) := by
  have hds : ∀ d ∈ decls attrs, d.1 ≠ "mask".toList := by
    intro d hd he
    rw [decls_eq_declared] at hd
    have : d.2 ∈ valuesOf "mask" attrs := List.mem_map.2 ⟨d, List.mem_filter.2 ⟨hd, by simpa using he⟩, rfl⟩
    rw [hm] at this
    cases this
  have e0 : readToken fuel (.start n attrs) c = (do pushStyle attrs; readStartElement fuel n attrs : CM F Unit) c := rfl
  rw [e0, SM.bind_run] at h
  rcases pushStyle_frame attrs c with ⟨top, rest, st, c0, hs, hdl, hR, hpu⟩ | ⟨hno, -⟩
  swap
  · exfalso
    generalize pushStyle attrs c = x at h hno
    obtain ⟨r, c0⟩ := x
    cases r with
    | ok u => exact hno u rfl
    | err e => cases h
    | panic e => cases h
    | diverge => cases h
  have harr : c0.svg.arrays = c.svg.arrays := by
    have := declLoop_arrays (decls attrs) hds top c
    rwa [hdl] at this
  have e1 := hR.eq
  rw [harr] at e1
  obtain ⟨Y1, hY1, -⟩ := hR.log
  rw [hpu] at h
  dsimp only at h
  generalize hc2 : ({ c0 with styleStack := st :: c.styleStack } : Cursor F) = c2 at h
  have e2 : c2 = { c with pc := { c.pc with points := c0.pc.points, log := c.pc.log ++ Y1 }, styleStack := st :: c.styleStack } := by
    rw [← hc2, e1, ← hY1]
  rcases readStartElement_cases fuel n attrs c2 with ⟨hdd, -⟩ | ⟨-, ⟨hnone, -⟩ | ⟨df, hdf, hcase⟩⟩
  · rw [e2] at hdd
    exact absurd (hd.symm.trans hdd) (by decide)
  · have := plain_known (F := F) hn fuel
    rw [hnone] at this
    cases this
  have hK : Keeps DrawR (df attrs) := by
    rcases drawFuncs_cases hdf with ⟨-, hk⟩ | ⟨he, -⟩ | ⟨-, rfl⟩ | ⟨he, -⟩ | ⟨he, -⟩ | ⟨he, -⟩ | ⟨he, -⟩ | ⟨he, -⟩ | ⟨he, -⟩ | ⟨he, -⟩ | ⟨he, -⟩
    · exact hk attrs
    rotate_left
    · exact keeps_pure drawR_pre _
    all_goals (rcases plain_mem hn with hn | hn <;> rw [he] at hn <;> exact absurd hn (by decide))
  have hD := hK c2
  rcases hcase with ⟨hnt, he⟩ | ⟨-, c4, hE, he⟩ | ⟨-, -, he⟩
  · exfalso
    rw [he] at h
    generalize df attrs c2 = x at h hnt
    obtain ⟨r, c3⟩ := x
    cases r with
    | ok u => exact hnt trivial
    | err e => exact hnt trivial
    | panic e => cases h
    | diverge => cases h
  swap
  · rw [he] at h
    cases h
  rw [he] at h
  generalize df attrs c2 = x at h hD hE
  obtain ⟨r, c3⟩ := x
  dsimp only at h hD hE
  have e3 := hD.eq
  have hX := hD.curX
  have hY := hD.curY
  have hM := hD.mode
  obtain ⟨Y2, hY2, -⟩ := hD.log
  rw [e2] at e3 hX hY hM hY2
  dsimp only at e3 hX hY hM hY2
  cases r with
  | err e => cases h
  | panic e => cases h
  | diverge => cases h
  | ok u =>
    obtain rfl := (Prod.mk.inj h).2
    clear h
    unfold Cursor.past
    rw [hp]
    cases hE with
    | nothing h0 =>
      refine ⟨[], Y1 ++ Y2, c4.pc, st, Nat.zero_le _, ?_⟩
      rw [List.append_nil, ← List.append_assoc, ← hY2, ← hX, ← hY, ← hM, ← h0]
      conv_lhs => rw [e3]
    | lost h0 h1 _ => rw [e3] at h1; exact absurd (hk.symm.trans h1) (by decide)
    | mask h0 h1 => rw [e3] at h1; exact absurd (hk.symm.trans h1) (by decide)
    | doc h0 h1 st' rest' hs' =>
      refine ⟨[⟨c3.pc.path, st'⟩], Y1 ++ Y2, c3.pc, st, Nat.le_refl _, ?_⟩
      rw [← List.append_assoc, ← hY2, ← hX, ← hY, ← hM]
      conv_lhs => rw [e3]

theorem readChars_idle (x : Str) (c : Cursor F) (hi : c.inTitleText = false) (hj : c.inDescText = false) : readChars x c = (.ok (), c) := by
  obtain ⟨pc, svg, ss, gr, it, id, ig, df, im, cd, mk⟩ := c
  cases hi
  cases hj
  rfl

/-- Groups and shapes that are closed again: the stack of styles is the same afterwards. -/
theorem body_run {fuel : Nat} : ∀ (body : List Token) (rel rel' : List Elem) (c c' : Cursor F) (E S : List (PathStyle F)), DrawingOnly body →
    (∀ e ∈ rel, GroupOrShape e.name) → openFrom rel body = some rel' → c.inDefs = false → c.inMask = false → c.inTitleText = false →
    c.inDescText = false → c.pc.path = [] → c.styleStack = E ++ S → E.length = rel.length → readTokens fuel body c = (.ok (), c') →
    ∃ (P : List (SvgPath F)) (Y : List Msg) (q : PathCursor F) (E' : List (PathStyle F)), P.length ≤ body.countP Token.isStart ∧
      E'.length = rel'.length ∧ c' = c.past P Y q (E' ++ S)
  | [], rel, rel', c, c', E, S, _, _, ho, _, _, _, _, _, hs, hl, h => by
    cases ho
    cases h
    refine ⟨[], [], c.pc, E, Nat.zero_le _, hl, ?_⟩
    unfold Cursor.past
    rw [List.append_nil, List.append_nil, ← hs]
  | t :: ts, rel, rel', c, c', E, S, hb, hr, ho, hd, hk, hi, hj, hp, hs, hl, h => by
    have hb' : DrawingOnly ts := fun name attrs hm => hb name attrs (List.mem_cons_of_mem _ hm)
    rw [readTokens_cons, SM.bind_run] at h
    cases t with
    | start n attrs =>
      obtain ⟨hn, hm⟩ := hb n attrs List.mem_cons_self
      rcases htk : readToken fuel (.start n attrs) c with ⟨r, c1⟩
      rw [htk] at h
      cases r with
      | err e => cases h
      | panic e => cases h
      | diverge => cases h
      | ok u =>
        obtain ⟨P1, Y1, q1, st, hP1, e1⟩ := plain_start hn hm hd hk hp htk
        rw [e1] at h
        obtain ⟨P2, Y2, q2, E', hP2, hE, e2⟩ := body_run ts (⟨n, attrs⟩ :: rel) rel' (c.past P1 Y1 q1 (st :: c.styleStack)) c' (st :: E) S hb'
          (fun e he => by rcases List.mem_cons.1 he with rfl | he <;> [exact hn; exact hr e he]) ho hd hk hi hj hp
          (by show st :: c.styleStack = _; rw [hs]; rfl) (by rw [List.length_cons, List.length_cons, hl]) h
        refine ⟨P1 ++ P2, Y1 ++ Y2, q2, E', ?_, hE, ?_⟩
        · rw [List.length_append, List.countP_cons_of_pos rfl]
          omega
        · rw [e2]
          unfold Cursor.past
          rw [List.append_assoc, List.append_assoc]
    | stop n =>
      cases rel with
      | nil => cases ho
      | cons e rel =>
        rw [openFrom] at ho
        split at ho
        · rename_i hen
          cases E with
          | nil => cases hl
          | cons st E =>
            have hn : GroupOrShape n := hen ▸ hr e List.mem_cons_self
            rw [show readToken fuel (.stop n) c = readEndElement n c from rfl, plain_stop hn hd (st := st) (rest := E ++ S) hs] at h
            obtain ⟨P2, Y2, q2, E', hP2, hE, e2⟩ := body_run ts rel rel' { c with styleStack := E ++ S } c' E S hb'
              (fun e he => hr e (List.mem_cons_of_mem _ he)) ho hd hk hi hj hp rfl (Nat.succ.inj hl) h
            exact ⟨P2, Y2, q2, E', by rw [List.countP_cons_of_neg (by simp [Token.isStart])]; exact hP2, hE, e2⟩
        · cases ho
    | chars x =>
      have e0 : readToken fuel (.chars x) c = (.ok (), c) := by
        exact readChars_idle x c hi hj
      rw [e0] at h
      obtain ⟨P2, Y2, q2, E', hP2, hE, e2⟩ := body_run ts rel rel' c c' E S hb' hr ho hd hk hi hj hp hs hl h
      exact ⟨P2, Y2, q2, E', by rw [List.countP_cons_of_neg (by simp [Token.isStart])]; exact hP2, hE, e2⟩
    | other =>
      obtain ⟨P2, Y2, q2, E', hP2, hE, e2⟩ := body_run ts rel rel' c c' E S hb' hr ho hd hk hi hj hp hs hl h
      exact ⟨P2, Y2, q2, E', by rw [List.countP_cons_of_neg (by simp [Token.isStart])]; exact hP2, hE, e2⟩

theorem pointed_toks {ts : List Token} (h : Pointed ts) : ∀ t ∈ ts, TokQ PointedDef t := by
  intro t ht
  cases t with
  | start name attrs => exact h name attrs ht
  | stop name => trivial
  | chars x => trivial
  | other => trivial

theorem parse_done {fuel : Nat} {m : ErrorMode} {ts : List Token} (hs : ts.any Token.isStart = true) {c : Cursor F}
    (h : readTokens fuel ts (initCursor (F := F) m) = (.ok (), c)) : parse (F := F) fuel m ts .eof = .done (some c.svg) none c.pc.log := by
  rw [parse_finish, h]
  unfold finish
  dsimp only
  rw [if_pos hs]

/-- C97, partial: behind `pre`, within the root and outside of `defs`, masks and texts, stand groups and shapes that are closed again,
and the document is read without error. Then it is read without error without them, too. The drawing is the same, and so are the
messages, but for the paths of these shapes, at most one for each start tag, which stand behind the paths of `pre`, and the
messages about them.

Missing: shapes with a mask of their own, whose name stays in the memory of the drawing. The points of what follows have to be
given, see `C97_points_false`; also in front of the shapes if there is a `use` behind them. -/
theorem C97_shapes_partial {fuel : Nat} {m : ErrorMode} {pre body post : List Token} {ch : List Elem}
    {s : Svg F} {l : List Msg} (ht : Tidy (pre ++ (body ++ post))) (hch : openFrom [] pre = some ch)
    (hroot : ch ≠ []) (hplace : ∀ n ∈ ["defs", "mask", "title", "desc"], inside n ch = false) (hbody : openFrom [] body = some [])
    (hdraw : DrawingOnly body) (ho : Pointed post) (hu : NoUse post ∨ Pointed pre)
    (h : parse fuel m (pre ++ (body ++ post)) .eof = .done (some s) none l) :
    ∃ (s0 : Svg F) (P B : List (SvgPath F)) (X Y Z : List Msg), P.length ≤ body.countP Token.isStart ∧
      parse fuel m pre .eof = .done (some s0) none X ∧
      s.svgPaths = s0.svgPaths ++ P ++ B ∧ l = X ++ Y ++ Z ∧
      parse fuel m (pre ++ post) .eof = .done (some { s with svgPaths := s0.svgPaths ++ B }) none (X ++ Z) := by
  have hseen : pre.any Token.isStart = true := by
    rcases open_any hch with h | h
    · exact absurd (List.length_eq_zero_iff.1 (Nat.le_zero.1 h)) hroot
    · exact h
  obtain ⟨c', hr, hs⟩ := parse_ok h
  have hl : l = c'.pc.log := by
    rw [parse_done (by rw [List.any_append, hseen]; rfl) hr] at h
    injection h with _ _ h
    exact h.symm
  obtain ⟨c, hpre, hr2⟩ := read_split hr
  obtain ⟨c1, hshape, hpost⟩ := read_split hr2
  obtain ⟨ch1, hch1, hrest⟩ := tidy_split (F := F) ht
  rw [hch] at hch1
  cases hch1
  have hj := (hrest (· = .color) fuel m c (tokensOK_color _) hpre).tidy.flags
  have hp : c.pc.path = [] := by
    have := readTokens_clean fuel pre (initCursor (F := F) m) rfl (by rw [hpre]; trivial)
    rwa [hpre] at this
  obtain ⟨P, Y, q, E', hP, hE, e1⟩ := body_run body [] [] c c1 [] c.styleStack hdraw (fun _ h => nomatch h) hbody
    (hj.inDefs.trans (hplace _ (by decide))) (hj.inMask.trans (by rw [hplace "mask" (by decide)]; rfl))
    (hj.inTitle.trans (by rw [hplace "title" (by decide)]; rfl)) (hj.inDesc.trans (by rw [hplace "desc" (by decide)]; rfl)) hp rfl rfl hshape
  obtain rfl := List.length_eq_zero_iff.1 hE
  let base : Cursor F := { c with pc := { c.pc with log := [] }, svg := { c.svg with svgPaths := [] } }
  have ec : c = base.behind ⟨c.svg.svgPaths, c.pc.log, c.pc⟩ := by
    simp only [base, Cursor.behind, List.append_nil]
  have ec1 : c1 = base.behind ⟨c.svg.svgPaths ++ P, c.pc.log ++ Y, q⟩ := by
    rw [e1]
    simp only [base, Cursor.behind, Cursor.past, List.append_nil, List.nil_append]
  have hal : ∀ k : Past F, ∃ q : PathCursor F, readTokens fuel post (base.behind k) =
      ((readTokens fuel post base).1, (readTokens fuel post base).2.behind (k.read q)) := by
    intro k
    rcases hu with hu | hu
    · refine readTokens_alone fuel post (fun t htm => ?_) base k
      cases t with
      | start name at' => exact ⟨fun he => hu at' (he ▸ htm), ho name at' htm⟩
      | stop name => trivial
      | chars x => trivial
      | other => trivial
    · have hc := readTokens_pointed fuel pre (pointed_toks hu) (defsQ_init PointedDef m (F := F))
      rw [hpre] at hc
      exact readTokens_aloneP fuel post (pointed_toks ho) base k ⟨hc.defs, hc.current⟩
  obtain ⟨q1, h1⟩ := hal ⟨c.svg.svgPaths, c.pc.log, c.pc⟩
  obtain ⟨q2, h2⟩ := hal ⟨c.svg.svgPaths ++ P, c.pc.log ++ Y, q⟩
  rw [← ec] at h1
  rw [← ec1, hpost] at h2
  obtain ⟨hok, rfl⟩ := Prod.mk.inj h2
  rw [← hok] at h1
  have hfin : readTokens fuel (pre ++ post) (initCursor m) = (.ok (), (readTokens fuel post base).2.behind
      (Past.read ⟨c.svg.svgPaths, c.pc.log, c.pc⟩ q1)) := by
    rw [readTokens_append, SM.bind_run, hpre]
    exact h1
  refine ⟨c.svg, P, (readTokens fuel post base).2.svg.svgPaths, c.pc.log, Y, (readTokens fuel post base).2.pc.log, hP, parse_done hseen hpre,
    by rw [← hs]; rfl, hl, ?_⟩
  rw [parse_done (by rw [List.any_append, hseen]; rfl) hfin, ← hs]
  rfl

end Generic

section Examples

attribute [local instance] asciiEnv
attribute [local instance] dummyLibm

/-- The document of the example: in front of the shapes, the shapes, and behind them. -/
def alonePre : List Token := .start "svg".toList [] :: elem "defs" [] (elem "circle" [("id", "k"), ("r", "2")]) ++
  .start "g".toList (attrsOf [("fill", "red")]) :: elem "rect" [("width", "4"), ("height", "4")]
def aloneBody : List Token := elem "g" [("fill-rule", "odd")] (.chars "x".toList :: elem "path" [("d", "M0 0L3 3")] ++ elem "polygon" [("points", "0 0 1 0 0 1")])
def alonePost : List Token := elem "polyline" [("points", "0 0 5 5 9 1")] ++ elem "use" [("href", "#k")] ++ [.stop "g".toList, .stop "svg".toList]

set_option maxRecDepth 100000 in
/-- C97 is not vacuous: a group between a rectangle and a polyline, and a `use`, read in warn mode, with a message. -/
theorem alone_example : openFrom [] alonePre = some [⟨"g".toList, attrsOf [("fill", "red")]⟩, ⟨"svg".toList, []⟩] ∧ openFrom [] aloneBody = some [] ∧
    (match parse (F := F64) 8 .warn (alonePre ++ (aloneBody ++ alonePost)) .eof, parse (F := F64) 8 .warn (alonePre ++ alonePost) .eof with
    | .done (some s) none l, .done (some s') none l' => decide (s.svgPaths.length = 5 ∧ s'.svgPaths.length = 3 ∧ l.length = 1 ∧ l' = [])
    | _, _ => false) = true := by decide +kernel

theorem alone_tidy : Tidy (alonePre ++ (aloneBody ++ alonePost)) := ⟨by decide, by decide, .inr (by decide)⟩

theorem alone_drawing : DrawingOnly aloneBody := fun name attrs h => by
  have key : ∀ t ∈ aloneBody, (match t with
      | .start n attrs => decide ((n = "g".toList ∨ n = "path".toList ∨ n = "polygon".toList) ∧ valuesOf "mask" attrs = [])
      | _ => true) = true := by decide +kernel
  obtain ⟨h1, h2⟩ := of_decide_eq_true (key _ h)
  refine ⟨?_, h2⟩
  rcases h1 with h | h | h
  · exact .inl h
  · exact .inr ⟨"path", by decide, h⟩
  · exact .inr ⟨"polygon", by decide, h⟩

theorem alone_own : Pointed alonePre ∧ Pointed alonePost := by
  have key : ∀ t ∈ alonePre ++ alonePost, (match t with
      | .start n attrs => decide (n = "polyline".toList ∨ n = "polygon".toList → attrs = attrsOf [("points", "0 0 5 5 9 1")])
      | _ => true) = true := by decide
  have all : Pointed (alonePre ++ alonePost) := fun name attrs h hn =>
    ⟨"0 0 5 5 9 1".toList, by rw [of_decide_eq_true (key _ h) hn]; exact List.mem_singleton.2 rfl⟩
  exact ⟨fun n a h => all n a (List.mem_append_left _ h), fun n a h => all n a (List.mem_append_right _ h)⟩

set_option maxRecDepth 100000 in
/-- C97 does not hold for documents with a polyline without points behind the shape: it is drawn with the numbers of the shape. -/
theorem C97_points_false : (match parse (F := F64) 8 .strict (elem "svg" [] (elem "polyline" [("points", "0 0 5 5 9 1")] ++ elem "polyline" [])) .eof,
      parse (F := F64) 8 .strict (elem "svg" [] (elem "polyline" [])) .eof with
    | .done (some s) none _, .done (some s') none _ => decide (s.svgPaths.length = 2 ∧ s'.svgPaths = [])
    | _, _ => false) = true := by decide +kernel

end Examples

end GoSvg
