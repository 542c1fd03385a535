import Verif.Spec.Documents
import Verif.Props.UseOffset
import Verif.Props.Computed
import Verif.Props.PathData
import Verif.Props.Float64Shapes

/-! C73: what the shapes of a document contribute to the drawing. -/

set_option linter.unusedSectionVars false

namespace GoSvg

open Spec

section
variable {F : Type} [GoFloat F] [GoEnv]

/-- The state in which an element is read. -/
theorem stands_ready {root : Elem} {ch : List Elem} {name : Str} {attrs : List Attr} {lead body post : List Token}
    (hw : Stands root ch (.start name attrs) lead body post) {fuel : Nat} {m : ErrorMode} {c c1 : Cursor F}
    (h1 : readTokens fuel (lead ++ .start root.name root.attrs :: body) (initCursor (F := F) m) = (.ok (), c))
    (k1 : pushStyle attrs c = (.ok (), c1)) :
    ∃ st, Ready c1 st ∧ c1.pc.curX = num 0 ∧ c1.pc.curY = num 0 ∧ c1.svg.viewBox = c.svg.viewBox ∧ c1.svg.svgPaths = c.svg.svgPaths := by
  have hflags : FlagsAt ch c := (tidy_table _ [] ch _ c () {} []
    (by rw [List.append_nil]; exact tidy_start m hw.tidy (tokensOK_color _)) (tableAt_init m) hw.around h1).2.tidy.flags
  have hh := here_of h1 hflags hw.defs hw.mask
  have hs := pushStyle_same k1
  have hc1 := here_same hs hh
  obtain ⟨st, hst⟩ : ∃ st, c1.styleStack.head? = some st := by
    rcases pushStyle_frame attrs c with ⟨top, rest, st, c2, -, -, -, hp⟩ | ⟨hn, -⟩
    · rw [hp] at k1
      obtain ⟨-, rfl⟩ := Prod.mk.inj k1
      exact ⟨st, rfl⟩
    · rw [k1] at hn
      exact absurd rfl (hn _)
  exact ⟨st, ⟨hc1.inDefs, hc1.inMask, hc1.path, hst⟩, hc1.curX, hc1.curY, hc1.viewBox, hs.paths⟩

/-- From the state in front of an element to the drawing. -/
theorem stands_states {root : Elem} {ch : List Elem} {name : Str} {attrs : List Attr} {lead body post : List Token}
    (hw : Stands root ch (.start name attrs) lead body post) {fuel : Nat} {m : ErrorMode} {s : Svg F} {l : List Msg}
    (h : parse (F := F) fuel m (lead ++ .start root.name root.attrs :: (body ++ .start name attrs :: post)) .eof = .done (some s) none l) :
    ∃ c c1 c' st, readTokens fuel (lead ++ .start root.name root.attrs :: body) (initCursor (F := F) m) = (.ok (), c) ∧
      Ready c1 st ∧ c1.pc.curX = num 0 ∧ c1.pc.curY = num 0 ∧ c1.svg.viewBox = s.viewBox ∧ c1.svg.svgPaths = c.svg.svgPaths ∧
      readStartElement fuel name attrs c1 = (.ok (), c') ∧ readToken fuel (.start name attrs) c = (.ok (), c') ∧
      c'.svg.svgPaths <+: s.svgPaths := by
  obtain ⟨cf, hr, rfl⟩ := parse_ok h
  rw [show lead ++ Token.start root.name root.attrs :: (body ++ .start name attrs :: post) =
    (lead ++ .start root.name root.attrs :: body) ++ ([.start name attrs] ++ post) by simp] at hr
  obtain ⟨c, h1, h2⟩ := read_split hr
  obtain ⟨c', h3, h4⟩ := read_split h2
  rw [readTokens_cons] at h3
  obtain ⟨_, c'', h5, h6⟩ := bind_ok h3
  cases h6
  have h5' := h5
  rw [readToken] at h5'
  obtain ⟨_, c1, k1, k2⟩ := bind_ok h5'
  obtain ⟨st, r1, r2, r3, r4, r5⟩ := stands_ready hw h1 k1
  have hbox : c.svg.viewBox = cf.svg.viewBox := by
    obtain ⟨c0, q1, q2⟩ := read_split h1
    rw [noTags_run (F := F) fuel m lead hw.prolog] at q1
    cases q1
    rw [readTokens_cons] at q2
    obtain ⟨_, c0, q1, q2⟩ := bind_ok q2
    have d1 : DefsQ NoSvgDef c0 := by
      have := start_outside_defsQ fuel root.name root.attrs (c := initCursor (F := F) m) rfl (defsQ_init NoSvgDef m)
      rwa [q1] at this
    have b1 := readTokens_box body (fun a ha => hw.noSvg a (List.mem_append_left _ ha)) d1 q2
    have hall : readTokens fuel (body ++ .start name attrs :: post) c0 = (.ok (), cf) := by
      rw [readTokens_append, SM.bind_run, q2]
      exact h2
    have b2 := readTokens_box _ hw.noSvg d1 hall
    rw [b1, b2]
  refine ⟨c, c1, c', st, h1, r1, r2, r3, r4.trans hbox, r5, k2, h5, ?_⟩
  have := (readTokens_grow fuel post c').svgPaths
  rw [h4] at this
  exact this

theorem outcome_paths {fuel : Nat} {m : ErrorMode} {ts : List Token} {c : Cursor F}
    (h : readTokens fuel ts (initCursor (F := F) m) = (.ok (), c)) : Outcome.paths (parse (F := F) fuel m ts (.error 0)) = c.svg.svgPaths := by
  rw [parse_cut h]; rfl

/-- An element that adds one path in every state contributes one path. -/
theorem stands_contributes {root : Elem} {ch : List Elem} {name : Str} {attrs : List Attr} {lead body post : List Token}
    (hw : Stands root ch (.start name attrs) lead body post) {fuel : Nat} {m : ErrorMode} {s : Svg F} {l : List Msg}
    (h : parse (F := F) fuel m (lead ++ .start root.name root.attrs :: (body ++ .start name attrs :: post)) .eof = .done (some s) none l)
    {P : Path → Prop} (ha : ∀ (c : Cursor F) (st : PathStyle F), Ready c st → c.pc.curX = num 0 → c.pc.curY = num 0 → c.svg.viewBox = s.viewBox →
      ∃ ops, P ops ∧ Adds (readStartElement fuel name attrs c) c [⟨ops, st⟩]) :
    Contributes fuel m (lead ++ .start root.name root.attrs :: body) (.start name attrs) s P := by
  obtain ⟨c, c1, c', st, h1, h2, h3, h4, h5, h6, h7, h8, h9⟩ := stands_states hw h
  obtain ⟨ops, k1, k2⟩ := ha c1 st h2 h3 h4 h5
  rw [h7] at k2
  have hp : c'.svg.svgPaths = c.svg.svgPaths ++ [⟨ops, st⟩] := by
    have := congrArg Svg.svgPaths k2.2.1
    rw [← h6]; exact this
  refine ⟨c.svg.svgPaths.length, ⟨ops, st⟩, fun j => ?_, ?_, k1⟩
  · have h12 : readTokens fuel ((lead ++ .start root.name root.attrs :: body) ++ [.start name attrs]) (initCursor (F := F) m) = (.ok (), c') := by
      rw [readTokens_append, SM.bind_run, h1]
      dsimp only
      rw [readTokens_cons, SM.bind_run, h8]
      rfl
    unfold DrawnBy
    rw [outcome_paths h1, outcome_paths h12, hp, List.length_append]
    simp only [List.length_cons, List.length_nil]
    omega
  · obtain ⟨t, ht⟩ := h9
    rw [← ht, hp, List.append_assoc, List.getElem?_append_right (le_refl _), Nat.sub_self]
    rfl

/-- An element that adds nothing in every state contributes nothing. -/
theorem stands_silent {root : Elem} {ch : List Elem} {name : Str} {attrs : List Attr} {lead body post : List Token}
    (hw : Stands root ch (.start name attrs) lead body post) {fuel : Nat} {m : ErrorMode} {s : Svg F} {l : List Msg}
    (h : parse (F := F) fuel m (lead ++ .start root.name root.attrs :: (body ++ .start name attrs :: post)) .eof = .done (some s) none l)
    (ha : ∀ (c : Cursor F) (st : PathStyle F), Ready c st → c.pc.curX = num 0 → c.pc.curY = num 0 → c.svg.viewBox = s.viewBox →
      Adds (readStartElement fuel name attrs c) c []) (j : Nat) :
    ¬ DrawnBy (F := F) fuel m (lead ++ .start root.name root.attrs :: body) (.start name attrs) j := by
  obtain ⟨c, c1, c', st, h1, h2, h3, h4, h5, h6, h7, h8, h9⟩ := stands_states hw h
  have k2 := ha c1 st h2 h3 h4 h5
  rw [h7] at k2
  have hp : c'.svg.svgPaths = c.svg.svgPaths := by
    have := congrArg Svg.svgPaths k2.2.1
    rw [← h6]; simpa using this
  have h12 : readTokens fuel ((lead ++ .start root.name root.attrs :: body) ++ [.start name attrs]) (initCursor (F := F) m) = (.ok (), c') := by
    rw [readTokens_append, SM.bind_run, h1]
    dsimp only
    rw [readTokens_cons, SM.bind_run, h8]
    rfl
  unfold DrawnBy
  rw [outcome_paths h1, outcome_paths h12, hp]
  omega

theorem pathAttr_other {a : Attr} (h : a.name ≠ "d".toList) (c : Cursor F) : pathAttr () a c = (.ok (), c) := by
  rw [show pathAttr () a = (pure () : CM F Unit) from if_neg h]
  rfl

theorem path_other : ∀ (attrs : List Attr), (∀ v, ¬ Given attrs "d" v) → ∀ c : Cursor F, attrLoop pathAttr () attrs c = (.ok (), c)
  | [], _, c => rfl
  | a :: as, h, c => by
    have h1 : a.name ≠ "d".toList := fun hn => h a.value (by rw [Given, ← hn]; exact List.mem_cons_self)
    rw [attrLoop, SM.bind_run, pathAttr_other h1]
    exact path_other as (fun v hv => h v (List.mem_cons_of_mem _ hv)) c

theorem path_data {v : Str} {pc : PathCursor F} : ∀ (attrs : List Attr), Distinct attrs → Given attrs "d" v → ∀ c : Cursor F,
    compilePath v c.pc = (.ok (), pc) → attrLoop pathAttr () attrs c = (.ok (), { c with pc := pc })
  | [], _, h, c, _ => by simp [Given] at h
  | a :: as, hd, h, c, hc => by
    rw [attrLoop, SM.bind_run]
    by_cases h1 : a.name = "d".toList
    · have ha : a = ⟨"d".toList, v⟩ := distinct_unique hd List.mem_cons_self h h1
      have hn : ∀ v, ¬ Given as "d" v := by
        intro v' hv'
        rw [Distinct, List.map_cons, List.nodup_cons] at hd
        exact hd.1 (by rw [h1]; exact List.mem_map_of_mem (f := Attr.name) hv')
      have : pathAttr () a c = (.ok (), { c with pc := pc }) := by
        rw [show pathAttr () a = (onPath (compilePath a.value) : CM F Unit) from if_pos h1, ha]
        unfold onPath
        rw [hc]
      rw [this]
      exact path_other as hn _
    · rw [pathAttr_other h1]
      have h2 : Given as "d" v := by
        rcases List.mem_cons.1 h with h | h
        · exact absurd (by rw [← h]) h1
        · exact h
      rw [Distinct, List.map_cons, List.nodup_cons] at hd
      exact path_data as hd.2 h2 c hc

/-- A path whose data is read. -/
theorem path_adds {fuel : Nat} {attrs : List Attr} (hd : Distinct attrs) {c : Cursor F} {st : PathStyle F} (hr : Ready c st) {v : Str}
    (hv : Given attrs "d" v) {pc : PathCursor F} (hc : compilePath v c.pc = (.ok (), pc)) :
    Adds (readStartElement fuel "path".toList attrs c) c (if pc.path = [] then [] else [⟨pc.path, st⟩]) :=
  start_adds (fuel := fuel) (name := "path".toList) (df := pathF) rfl hr (path_data attrs hd hv c hc)

end

variable [GoEnv]

/-- The place of an element in a document that is parsed to `s`. -/
structure Parsed {F : Type} [GoFloat F] (fuel : Nat) (m : ErrorMode) (root : Elem) (ch : List Elem) (name : Str) (attrs : List Attr)
    (lead body post : List Token) (s : Svg F) : Prop where
  place : Stands root ch (.start name attrs) lead body post
  distinct : Distinct attrs
  result : ∃ l, parse (F := F) fuel m (lead ++ .start root.name root.attrs :: (body ++ .start name attrs :: post)) .eof = .done (some s) none l

section Exact

variable {fuel : Nat} {m : ErrorMode} {root : Elem} {ch : List Elem} {attrs : List Attr} {lead body post : List Token} {s : Svg ℝ}

/-- C73, lines, in exact arithmetic. -/
theorem C73_line (h : Parsed fuel m root ch "line".toList attrs lead body post s) {x1 y1 x2 y2 : ℝ}
    (h1 : Len s.viewBox attrs "x1" .width x1) (h2 : Len s.viewBox attrs "y1" .height y1)
    (h3 : Len s.viewBox attrs "x2" .width x2) (h4 : Len s.viewBox attrs "y2" .height y2) :
    Contributes fuel m (lead ++ .start root.name root.attrs :: body) (.start "line".toList attrs) s fun ops =>
      ops = [.moveTo (toFixedP x1 y1), .lineTo (toFixedP x2 y2)] := by
  obtain ⟨l, hl⟩ := h.result
  refine stands_contributes h.place hl fun c st hr hx hy hb => ⟨_, rfl, ?_⟩
  rw [← hb] at h1 h2 h3 h4
  have := C17_line (fuel := fuel) h.distinct hr h1 h2 h3 h4
  simpa [hx, hy] using this

/-- C73, rectangles with square corners, in exact arithmetic. -/
theorem C73_rect (h : Parsed fuel m root ch "rect".toList attrs lead body post s) {x y w ht rx ry : ℝ}
    (hv : IsRect s.viewBox attrs x y w ht rx ry) (hw : w ≠ 0) (hh : ht ≠ 0) (h0 : rx ≤ 0 ∧ ry ≤ 0) :
    Contributes fuel m (lead ++ .start root.name root.attrs :: body) (.start "rect".toList attrs) s fun ops =>
      ops = [.moveTo (toFixedP x y), .lineTo (toFixedP (x + w) y), .lineTo (toFixedP (x + w) (y + ht)), .lineTo (toFixedP x (y + ht)), .close] := by
  obtain ⟨l, hl⟩ := h.result
  refine stands_contributes h.place hl fun c st hr hx hy hb => ⟨_, rfl, ?_⟩
  rw [← hb] at hv
  have := C16_corners (fuel := fuel) h.distinct hr hv hw hh h0
  simpa [hx, hy] using this

/-- C73, circles and ellipses, in exact arithmetic. -/
theorem C73_ellipse {name : Str} (hn : name = "circle".toList ∨ name = "ellipse".toList) (h : Parsed fuel m root ch name attrs lead body post s)
    {cx cy rx ry : ℝ} (h1 : Len s.viewBox attrs "cx" .width cx) (h2 : Len s.viewBox attrs "cy" .height cy) (h3 : Radii s.viewBox attrs rx ry)
    (hx : rx ≠ 0) (hy : ry ≠ 0) :
    Contributes fuel m (lead ++ .start root.name root.attrs :: body) (.start name attrs) s fun ops =>
      ∃ cs, Follows ⟨cx, cy, rx, ry, 0⟩ 0 (-(2 * Real.pi)) 17 cs ∧
        ops = [.moveTo (toFixedP (cx + rx) cy)] ++
          cs.map (fun b => .cubicTo (toFixedP b.p1.1 b.p1.2) (toFixedP b.p2.1 b.p2.2) (toFixedP b.p3.1 b.p3.2)) ++ [.close] := by
  obtain ⟨l, hl⟩ := h.result
  refine stands_contributes h.place hl fun c st hr hcx hcy hb => ?_
  rw [← hb] at h1 h2 h3
  obtain ⟨cs, f1, f2⟩ := C15_ellipse (fuel := fuel) hn h.distinct hr h1 h2 h3 hx hy
  have e0 : (num 0 : ℝ) = 0 := by simp
  rw [hcx, hcy, e0, add_zero, add_zero] at f1 f2
  exact ⟨_, ⟨cs, f1, rfl⟩, f2⟩

/-- C73, polylines and polygons of three or more points, in exact arithmetic. Partial: fewer points, and elements without points; the
claim is false for both, see `C17_two_points_false`, `C17_no_points_false`. -/
theorem C73_poly_partial {closed : Bool} (h : Parsed fuel m root ch (if closed then "polygon" else "polyline").toList attrs lead body post s)
    {p : ℝ × ℝ} {pts : List (ℝ × ℝ)} {v : Str} (hv : Given attrs "points" v) (hw : WritesNumbers (coords (p :: pts)) v) (h2 : 2 ≤ pts.length) :
    Contributes fuel m (lead ++ .start root.name root.attrs :: body) (.start (if closed then "polygon" else "polyline").toList attrs) s fun ops =>
      ops = .moveTo (toFixedP p.1 p.2) :: pts.map (fun q => .lineTo (toFixedP q.1 q.2)) ++ (if closed then [.close] else []) := by
  obtain ⟨l, hl⟩ := h.result
  refine stands_contributes h.place hl fun c st hr hx hy hb => ⟨_, rfl, ?_⟩
  have := C17_poly_partial (fuel := fuel) (closed := closed) h.distinct hr hv hw h2
  have e0 : (num 0 : ℝ) = 0 := by simp
  simp only [hx, hy, e0, real_add, add_zero] at this
  exact this

/-- C73, paths without arcs, in exact arithmetic. -/
theorem C73_path (h : Parsed fuel m root ch "path".toList attrs lead body post s) (pre : Str)
    (hpre : ∀ ch ∈ pre, GoEnv.isLetter ch = false) (cmds : List (Cmd ℝ)) (ts : List Str) (hw : List.Forall₂ WrittenExactly cmds ts)
    (hm : StartsWithMoves false cmds) (hne : draw cmds ≠ []) (hv : Given attrs "d" (pre ++ ts.flatten)) :
    Contributes fuel m (lead ++ .start root.name root.attrs :: body) (.start "path".toList attrs) s fun ops =>
      ops = (draw cmds).map (GOp.store toFix 0 0) := by
  obtain ⟨l, hl⟩ := h.result
  refine stands_contributes h.place hl fun c st hr hx hy hb => ⟨_, rfl, ?_⟩
  obtain ⟨pc, h1, h2, -⟩ := C06_path_semantics_exact pre hpre cmds ts hw hm c.pc
  have e0 : (num 0 : ℝ) = 0 := by simp
  have := path_adds (fuel := fuel) h.distinct hr hv h1
  rw [h2, hx, hy, e0, if_neg (by simpa using hne)] at this
  exact this

/-- C73, what draws nothing: rectangles without width or height, circles and ellipses without a radius, for any arithmetic. -/
theorem C73_nothing {F : Type} [GoFloat F] {name : Str} {s : Svg F} (h : Parsed fuel m root ch name attrs lead body post s)
    (hn : (name = "rect".toList ∧ ∃ x y w ht rx ry, IsRect s.viewBox attrs x y w ht rx ry ∧
        (GoFloat.eq w (num 0) = true ∨ GoFloat.eq ht (num 0) = true)) ∨
      ((name = "circle".toList ∨ name = "ellipse".toList) ∧ ∃ cx cy rx ry, Len s.viewBox attrs "cx" .width cx ∧ Len s.viewBox attrs "cy" .height cy ∧
        Radii s.viewBox attrs rx ry ∧ (GoFloat.eq rx (num 0) = true ∨ GoFloat.eq ry (num 0) = true))) (j : Nat) :
    ¬ DrawnBy (F := F) fuel m (lead ++ .start root.name root.attrs :: body) (.start name attrs) j := by
  obtain ⟨l, hl⟩ := h.result
  refine stands_silent h.place hl (fun c st hr hx hy hb => ?_) j
  rcases hn with ⟨rfl, x, y, w, ht, rx, ry, k1, k2⟩ | ⟨hn, cx, cy, rx, ry, k1, k2, k3, k4⟩
  · exact C16_empty h.distinct hr (hb ▸ k1) k2
  · exact C15_zero_radius hn h.distinct hr (hb ▸ k1) (hb ▸ k2) (hb ▸ k3) k4

end Exact

section Binary64

variable [Libm] {fuel : Nat} {m : ErrorMode} {root : Elem} {ch : List Elem} {attrs : List Attr} {lead body post : List Token} {s : Svg F64}

/-- C73 in binary64, lines on a binary grid. -/
theorem C73_float64_line (h : Parsed fuel m root ch "line".toList attrs lead body post s) {k : Nat} (hk : k ≤ 1074) {x1 y1 x2 y2 : ℝ}
    (h1 : GridLen k attrs "x1" x1) (h2 : GridLen k attrs "y1" y1) (h3 : GridLen k attrs "x2" x2) (h4 : GridLen k attrs "y2" y2) :
    Contributes fuel m (lead ++ .start root.name root.attrs :: body) (.start "line".toList attrs) s fun ops =>
      ops = [.moveTo (toFixedP x1 y1), .lineTo (toFixedP x2 y2)] := by
  obtain ⟨l, hl⟩ := h.result
  have hz : Is (num 0 : F64) 0 := F64.is_num F64.rep_zero
  exact stands_contributes h.place hl fun c st hr hx hy hb => ⟨_, rfl, C70_line h.distinct hr (hx ▸ hz) (hy ▸ hz) hk h1 h2 h3 h4⟩

/-- C73 in binary64, rectangles with square corners on a binary grid. -/
theorem C73_float64_rect (hL : ExactAtZero) (h : Parsed fuel m root ch "rect".toList attrs lead body post s) {k : Nat} (hk : k ≤ 1073)
    {x y w ht rx ry : ℝ} (h1 : GridLen k attrs "x" x) (h2 : GridLen k attrs "y" y) (h3 : GridLen k attrs "width" w) (h4 : GridLen k attrs "height" ht)
    (h5 : GridLen k attrs "rx" rx) (h6 : GridLen k attrs "ry" ry) (hw : w ≠ 0) (hh : ht ≠ 0) (h0 : rx ≤ 0 ∧ ry ≤ 0)
    (hb : |x + w| ≤ 2 ^ 51 / 2 ^ k ∧ |y + ht| ≤ 2 ^ 51 / 2 ^ k) :
    Contributes fuel m (lead ++ .start root.name root.attrs :: body) (.start "rect".toList attrs) s fun ops =>
      ops = [.moveTo (toFixedP x y), .lineTo (toFixedP (x + w) y), .lineTo (toFixedP (x + w) (y + ht)), .lineTo (toFixedP x (y + ht)), .close] := by
  obtain ⟨l, hl⟩ := h.result
  have hz : Is (num 0 : F64) 0 := F64.is_num F64.rep_zero
  exact stands_contributes h.place hl fun c st hr hx hy _ => ⟨_, rfl,
    C70_rect hL h.distinct hr (hx ▸ hz) (hy ▸ hz) hk h1 h2 h3 h4 h5 h6 hw hh h0 hb⟩

/-- C73 in binary64, polylines and polygons of three or more points on a binary grid. Partial: as in exact arithmetic. -/
theorem C73_float64_poly_partial {closed : Bool}
    (h : Parsed fuel m root ch (if closed then "polygon" else "polyline").toList attrs lead body post s) {k : Nat} (hk : k ≤ 1074)
    {p : ℝ × ℝ} {pts : List (ℝ × ℝ)} {g : GroupList} (hg : g.WF) (hv : Given attrs "points" g.text)
    (hc : g.numbers.map (fun n => (n.value : ℝ)) = coords (p :: pts)) (hgr : ∀ r ∈ coords (p :: pts), Grid k r) (h2 : 2 ≤ pts.length) :
    Contributes fuel m (lead ++ .start root.name root.attrs :: body) (.start (if closed then "polygon" else "polyline").toList attrs) s fun ops =>
      ops = .moveTo (toFixedP p.1 p.2) :: pts.map (fun q => .lineTo (toFixedP q.1 q.2)) ++ (if closed then [.close] else []) := by
  obtain ⟨l, hl⟩ := h.result
  have hz : Is (num 0 : F64) 0 := F64.is_num F64.rep_zero
  exact stands_contributes h.place hl fun c st hr hx hy _ => ⟨_, rfl,
    C70_poly_partial h.distinct hr (hx ▸ hz) (hy ▸ hz) hk hg hv hc hgr h2⟩

/-- C73 in binary64, paths without arcs on a binary grid. -/
theorem C73_float64_path (h : Parsed fuel m root ch "path".toList attrs lead body post s) (k : Nat) (hk : k ≤ 1074) (pre : Str)
    (hpre : ∀ ch ∈ pre, GoEnv.isLetter ch = false) (cmds : List (Cmd ℝ)) (ts : List Str) (hw : List.Forall₂ WrittenExactly cmds ts)
    (hm : StartsWithMoves false cmds) (hg : ∀ cmd ∈ cmds, ∀ r ∈ cmd.args, Grid k r) (hb : ∀ o ∈ draw cmds, LowOp k o) (hne : draw cmds ≠ [])
    (hv : Given attrs "d" (pre ++ ts.flatten)) :
    Contributes fuel m (lead ++ .start root.name root.attrs :: body) (.start "path".toList attrs) s fun ops =>
      ops = (draw cmds).map (GOp.store toFix 0 0) := by
  obtain ⟨l, hl⟩ := h.result
  have hz : Is (num 0 : F64) 0 := F64.is_num F64.rep_zero
  refine stands_contributes h.place hl fun c st hr hx hy _ => ⟨_, rfl, ?_⟩
  obtain ⟨pc, h1, h2, -⟩ := C68_grid_path k hk pre hpre cmds ts hw hm hg hb c.pc (hx ▸ hz) (hy ▸ hz)
  have := path_adds (fuel := fuel) h.distinct hr hv h1
  rw [h2, if_neg (by simpa using hne)] at this
  exact this

end Binary64

end GoSvg

namespace GoSvg

open Spec

section Examples

attribute [local instance] asciiEnv
attribute [local instance] dummyLibm

def placeRoot : Elem := ⟨"svg".toList, attrsOf [("viewBox", "0 0 100 50"), ("fill", "red")]⟩

/-- Before the element: a definition, a use of it with an offset, an open group. -/
def placeBody : List Token := elem "defs" [] (elem "g" [("id", "a")] (elem "line" [("x2", "3")])) ++ elem "use" [("href", "#a"), ("x", "7"), ("y", "10%")] [] ++
  [.start "g".toList (attrsOf [("transform", "scale(2)"), ("stroke", "blue")])]

def placePost (name : String) : List Token := [name, "g", "svg"].map fun n => .stop n.toList

def placeCh : List Elem := [⟨"g".toList, attrsOf [("transform", "scale(2)"), ("stroke", "blue")]⟩, placeRoot]

theorem place_stands (name : String) (attrs : List Attr)
    (h : ((placeBody ++ .start name.toList attrs :: placePost name).all fun t => match t with | .start n _ => n ≠ "svg".toList | _ => true) = true) :
    Stands placeRoot placeCh (.start name.toList attrs) [] placeBody (placePost name) :=
  ⟨by decide, ⟨by decide +kernel, by decide +kernel, .inr (by decide +kernel)⟩, by decide +kernel, by decide +kernel, by decide +kernel, noSvg_of h⟩

/-- The whole document. -/
def placeDoc (name : String) (attrs : List Attr) : List Token :=
  [] ++ .start placeRoot.name placeRoot.attrs :: (placeBody ++ .start name.toList attrs :: placePost name)

theorem place_parsed {F : Type} [GoFloat F] (name : String) (attrs : List Attr) (hd : Distinct attrs)
    (h : ((placeBody ++ .start name.toList attrs :: placePost name).all fun t => match t with | .start n _ => n ≠ "svg".toList | _ => true) = true)
    (hp : (match parse (F := F) 8 .strict (placeDoc name attrs) .eof with | .done (some _) none _ => true | _ => false) = true) :
    ∃ s : Svg F, Parsed 8 .strict placeRoot placeCh name.toList attrs [] placeBody (placePost name) s := by
  split at hp
  · rename_i s l hs
    exact ⟨s, place_stands name attrs h, hd, l, hs⟩
  · cases hp

/-- In exact arithmetic: a line in a group with a transform, after a use with an offset, is where its attributes say. -/
example : ∃ s : Svg ℝ, Contributes 8 .strict ([] ++ .start placeRoot.name placeRoot.attrs :: placeBody)
    (.start "line".toList (attrsOf [("y2", "1"), ("x1", "2"), ("stroke-width", "3")])) s fun ops =>
      ops = [.moveTo (toFixedP (2 : ℝ) 0), .lineTo (toFixedP (0 : ℝ) 1)] := by
  obtain ⟨s, hs⟩ := place_parsed (F := ℝ) "line" (attrsOf [("y2", "1"), ("x1", "2"), ("stroke-width", "3")]) (by decide) (by decide +kernel)
    (by decide +kernel)
  refine ⟨s, ?_⟩
  obtain ⟨A, hA⟩ : ∃ A, A = attrsOf [("y2", "1"), ("x1", "2"), ("stroke-width", "3")] := ⟨_, rfl⟩
  rw [← hA] at hs ⊢
  have := C73_line hs
    (len_dec (n := "x1") (v := "2".toList) (q := 2) (by rw [hA]; decide) (by decide) (by decide +kernel) _ _)
    (len_none (by rw [hA]; decide) _ _) (len_none (by rw [hA]; decide) _ _)
    (len_dec (n := "y2") (v := "1".toList) (q := 1) (by rw [hA]; decide) (by decide) (by decide +kernel) _ _)
  simpa using this

theorem stops_ok {F : Type} [GoFloat F] (fuel : Nat) : ∀ (names : List String) (c : Cursor F), names.length ≤ c.styleStack.length →
    ∃ c', readTokens fuel (names.map fun n => .stop n.toList) c = (.ok (), c')
  | [], c, _ => ⟨c, rfl⟩
  | n :: ns, c, h => by
    cases hs : c.styleStack with
    | nil => rw [hs] at h; simp at h
    | cons t rest =>
      obtain ⟨c1, h1, h2⟩ : ∃ c1, readToken fuel (.stop n.toList) c = (.ok (), c1) ∧ c1.styleStack = rest := by
        have hp : popStyle c = (.ok (), { c with styleStack := rest }) := by
          unfold popStyle
          rw [hs]
        refine ⟨(readToken fuel (.stop n.toList) c).2, Prod.ext ?_ rfl, ?_⟩
        · rw [readToken, readEndElement, SM.bind_run, hp]; rfl
        · rw [readToken, readEndElement, SM.bind_run, hp]
          dsimp only [SM.modify]
          split_ifs <;> first | rfl | (split <;> rfl)
      obtain ⟨c', h3⟩ := stops_ok fuel ns c1 (by rw [h2]; rw [hs] at h; simpa using h)
      refine ⟨c', ?_⟩
      rw [List.map_cons, readTokens_cons, SM.bind_run, h1]
      exact h3

/-- The same for elements whose drawing depends on whether some number is zero. -/
theorem place_adds {F : Type} [GoFloat F] (name : String) (attrs : List Attr) (hd : Distinct attrs)
    (h : ((placeBody ++ .start name.toList attrs :: placePost name).all fun t => match t with | .start n _ => n ≠ "svg".toList | _ => true) = true)
    (hp : (match readTokens 8 ([] ++ .start placeRoot.name placeRoot.attrs :: placeBody) (initCursor (F := F) .strict) with
      | (.ok _, c) => (match pushStyle attrs c with | (.ok _, c1) => decide (3 ≤ c1.styleStack.length) | _ => false) | _ => false) = true)
    (ha : ∀ (c : Cursor F) (st : PathStyle F), Ready c st → c.pc.curX = num 0 → c.pc.curY = num 0 →
      ∃ ps, Adds (readStartElement 8 name.toList attrs c) c ps) :
    ∃ s : Svg F, Parsed 8 .strict placeRoot placeCh name.toList attrs [] placeBody (placePost name) s := by
  split at hp
  · rename_i c h1
    split at hp
    · rename_i c1 h2
      obtain ⟨st, hr, hx, hy, -⟩ := stands_ready (place_stands name attrs h) h1 h2
      obtain ⟨ps, k1, k2, k3⟩ := ha c1 st hr hx hy
      rcases h3 : readStartElement 8 name.toList attrs c1 with ⟨r, c2⟩
      rw [h3] at k1 k3
      dsimp only at k1 k3
      subst k1
      obtain ⟨c3, h4⟩ := stops_ok 8 [name, "g", "svg"] c2 (by rw [k3]; exact of_decide_eq_true hp)
      refine ⟨c3.svg, place_stands name attrs h, hd, c3.pc.log, ?_⟩
      have hall : readTokens 8 (placeDoc name attrs) (initCursor (F := F) .strict) = (.ok (), c3) := by
        rw [show placeDoc name attrs = ([] ++ .start placeRoot.name placeRoot.attrs :: placeBody) ++ (.start name.toList attrs :: placePost name) from rfl,
          readTokens_append, SM.bind_run, h1]
        dsimp only
        rw [readTokens_cons, SM.bind_run, readToken, SM.bind_run, h2]
        dsimp only
        rw [h3]
        exact h4
      unfold parse
      rw [show ([] ++ Token.start placeRoot.name placeRoot.attrs :: (placeBody ++ .start name.toList attrs :: placePost name)) = placeDoc name attrs from rfl,
        hall]
      rfl
    · cases hp
  · cases hp

/-- The other kinds of elements in the same place. -/
example : (∃ s : Svg ℝ, Parsed 8 .strict placeRoot placeCh "path".toList (attrsOf [("id", "b"), ("d", "M1 2l3 4z")]) [] placeBody (placePost "path") s) ∧
    (∃ s : Svg ℝ, Parsed 8 .strict placeRoot placeCh "polygon".toList (attrsOf [("points", "0,0 1,0 1,1")]) [] placeBody (placePost "polygon") s) :=
  ⟨place_parsed "path" _ (by decide) (by decide +kernel) (by decide +kernel), place_parsed "polygon" _ (by decide) (by decide +kernel) (by decide +kernel)⟩

/-- A square and a circle. -/
example : (∃ s : Svg ℝ, Contributes 8 .strict ([] ++ .start placeRoot.name placeRoot.attrs :: placeBody) (.start "rect".toList (exRect "0" "0")) s fun ops =>
      ops = [.moveTo (toFixedP (0 : ℝ) 0), .lineTo (toFixedP (40 : ℝ) 0), .lineTo (toFixedP (40 : ℝ) 40), .lineTo (toFixedP (0 : ℝ) 40), .close]) ∧
    ∃ s : Svg ℝ, Parsed 8 .strict placeRoot placeCh "circle".toList (attrsOf [("r", "3"), ("cx", "1")]) [] placeBody (placePost "circle") s := by
  constructor
  · have hv := ex_rect (rx := "0") (ry := "0") (q := 0) (q' := 0) (by decide) (by decide +kernel) (by decide) (by decide +kernel)
    obtain ⟨s, hs⟩ := place_adds (F := ℝ) "rect" (exRect "0" "0") (exRect_distinct _ _) (by decide +kernel) (by decide +kernel)
      fun c st hr _ _ => ⟨_, C16_corners (exRect_distinct _ _) hr (hv c.svg.viewBox) (by norm_num) (by norm_num) (by simp)⟩
    refine ⟨s, ?_⟩
    have := C73_rect hs (hv s.viewBox) (by norm_num) (by norm_num) (by simp)
    simpa using this
  · obtain ⟨A, hA⟩ : ∃ A, A = attrsOf [("r", "3"), ("cx", "1")] := ⟨_, rfl⟩
    have hd : Distinct A := by rw [hA]; decide
    refine hA ▸ place_adds (F := ℝ) "circle" A hd (by rw [hA]; decide +kernel) (by rw [hA]; decide +kernel) fun c st hr _ _ => ?_
    obtain ⟨cs, -, g2⟩ := C15_ellipse (fuel := 8) (.inl rfl) hd hr
      (len_dec (attrs := A) (n := "cx") (v := "1".toList) (q := 1) (by rw [hA]; decide) (by decide) (by decide +kernel) _ _)
      (len_none (by rw [hA]; decide) _ _)
      (.inl ⟨len_dec (attrs := A) (n := "r") (v := "3".toList) (q := 3) (by rw [hA]; decide) (by decide) (by decide +kernel) _ _, rfl,
        not_given (by rw [hA]; decide), not_given (by rw [hA]; decide)⟩) (by norm_num) (by norm_num)
    exact ⟨_, g2⟩

set_option maxRecDepth 100000 in
/-- In binary64: the rectangle of the example of C70, in a document. -/
example : ∃ s : Svg F64, Contributes 8 .strict ([] ++ .start placeRoot.name placeRoot.attrs :: placeBody)
    (.start "rect".toList (attrsOf [("x", "-1.5"), ("width", "2.25"), ("height", "1in")])) s fun ops =>
      ops = [.moveTo (toFixedP (-3 / 2 : ℝ) 0), .lineTo (toFixedP (3 / 4 : ℝ) 0), .lineTo (toFixedP (3 / 4 : ℝ) 96),
        .lineTo (toFixedP (-3 / 2 : ℝ) 96), .close] := by
  obtain ⟨s, hs⟩ := place_parsed (F := F64) "rect" (attrsOf [("x", "-1.5"), ("width", "2.25"), ("height", "1in")]) (by decide) (by decide +kernel)
    (by decide +kernel)
  refine ⟨s, ?_⟩
  obtain ⟨A, hA⟩ : ∃ A, A = attrsOf [("x", "-1.5"), ("width", "2.25"), ("height", "1in")] := ⟨_, rfl⟩
  rw [← hA] at hs ⊢
  have g1 : GridLen 2 A "x" ((-3 / 2 : ℚ) : ℝ) := gridLen_of ⟨true, "1".toList, some "5".toList, none⟩ "" 1 (v := -3 / 2) (by decide +kernel)
    (by rw [hA]; decide +kernel) (by decide +kernel) (by decide +kernel) (by norm_num) ⟨-6, by norm_num, by norm_num⟩ ⟨-6, by norm_num, by norm_num⟩
  have g3 : GridLen 2 A "width" ((9 / 4 : ℚ) : ℝ) := gridLen_of ⟨false, "2".toList, some "25".toList, none⟩ "" 1 (v := 9 / 4) (by decide +kernel)
    (by rw [hA]; decide +kernel) (by decide +kernel) (by decide +kernel) (by norm_num) ⟨9, by norm_num, by norm_num⟩ ⟨9, by norm_num, by norm_num⟩
  have g4 : GridLen 2 A "height" ((96 : ℚ) : ℝ) := gridLen_of ⟨false, "1".toList, none, none⟩ "in" 96 (v := 1) (by decide +kernel)
    (by rw [hA]; decide +kernel) (by decide +kernel) (by decide +kernel) (by norm_num) ⟨4, by norm_num, by norm_num⟩ ⟨384, by norm_num, by norm_num⟩
  have := C73_float64_rect dummy_exact hs (by norm_num) g1
    (gridLen_none (by rw [hA]; decide)) g3 g4 (gridLen_none (by rw [hA]; decide)) (gridLen_none (by rw [hA]; decide)) (by norm_num)
    (by norm_num) ⟨le_refl _, le_refl _⟩ (by norm_num [abs_le])
  norm_num at this ⊢
  exact this

end Examples

end GoSvg
