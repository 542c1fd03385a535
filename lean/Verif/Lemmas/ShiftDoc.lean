import Verif.Lemmas.Shift
import Verif.Props.Use

/-! A definition drawn by `use` and its content drawn in place. -/

set_option linter.unusedSectionVars false

namespace GoSvg

open Spec

variable {F : Type} [GoFloat F] [GoEnv]

open SM (get modify throw lift panic diverge forEach)

/-- What all elements draw. -/
def drawnBy (R : Definition → List (GOp F)) (ds : List Definition) : List (GOp F) :=
  ds.flatMap fun d => if d.tag = "endg".toList then [] else R d

theorem popStyle_ok {c c' : Cursor F} {u : Unit} (h : popStyle c = (.ok u, c')) : c' = { c with styleStack := c.styleStack.tail } := by
  unfold popStyle at h
  cases hs : c.styleStack with
  | nil => rw [hs] at h; cases h
  | cons a b => rw [hs] at h; cases h; rfl

theorem bind_ok {α β : Type} {m : CM F α} {f : α → CM F β} {c c' : Cursor F} {b : β} (h : (m >>= f) c = (.ok b, c')) :
    ∃ a d, m c = (.ok a, d) ∧ f a d = (.ok b, c') := by
  rw [SM.bind_run] at h
  rcases hm : m c with ⟨r, d⟩
  rw [hm] at h
  cases r with
  | ok a => exact ⟨a, d, rfl, h⟩
  | err e => cases h
  | panic e => cases h
  | diverge => cases h

/-- What matters for drawing. -/
structure SameDraw (c d : Cursor F) : Prop where
  viewBox : d.svg.viewBox = c.svg.viewBox
  mode : d.pc.errorMode = c.pc.errorMode
  path : d.pc.path = c.pc.path
  curX : d.pc.curX = c.pc.curX
  curY : d.pc.curY = c.pc.curY
  paths : d.svg.svgPaths = c.svg.svgPaths
  inDefs : d.inDefs = c.inDefs
  inMask : d.inMask = c.inMask

theorem SameDraw.trans {c d e : Cursor F} (h1 : SameDraw c d) (h2 : SameDraw d e) : SameDraw c e :=
  ⟨h2.1.trans h1.1, h2.2.trans h1.2, h2.3.trans h1.3, h2.4.trans h1.4, h2.5.trans h1.5, h2.6.trans h1.6, h2.7.trans h1.7, h2.8.trans h1.8⟩

theorem styleR_same {c d : Cursor F} (h : StyleR c d) : SameDraw c d := by
  have e := h.eq
  constructor <;> rw [e]

theorem pushStyle_same {attrs : List Attr} {c c' : Cursor F} {u : Unit} (h : pushStyle attrs c = (.ok u, c')) : SameDraw c c' := by
  rcases pushStyle_frame attrs c with ⟨top, rest, st, c1, -, -, hs, hp⟩ | ⟨hn, -⟩
  · rw [hp] at h
    obtain ⟨-, rfl⟩ := Prod.mk.inj h
    have := styleR_same hs
    exact ⟨this.1, this.2, this.3, this.4, this.5, this.6, this.7, this.8⟩
  · rw [h] at hn
    exact absurd rfl (hn u)

theorem popStyle_same {c c' : Cursor F} {u : Unit} (h : popStyle c = (.ok u, c')) : SameDraw c c' := by
  rw [popStyle_ok h]; exact ⟨rfl, rfl, rfl, rfl, rfl, rfl, rfl, rfl⟩

theorem useLoop_draws {vb : Bounds F} {m : ErrorMode} {fuel : Nat} {R : Definition → List (GOp F)} : ∀ (ds : List Definition),
    (∀ d ∈ ds, d.tag ≠ "endg".toList → Drawn vb m d (R d)) → PathFirst ds → ∀ (c c' : Cursor F) (u : Unit), c.svg.viewBox = vb →
      c.pc.errorMode = m → (c.pc.path = [] ∨ ∀ d ∈ ds, d.tag ≠ "path".toList) →
      useLoop (drawFuncs fuel (useF fuel)) ds c = (.ok u, c') →
      c'.pc.path = c.pc.path ++ (drawnBy R ds).map (sto c.pc) ∧ c'.svg.svgPaths = c.svg.svgPaths ∧ c'.inMask = c.inMask
  | [], _, _, c, c', u, _, _, _, h => by cases h; exact ⟨by simp [drawnBy], rfl, rfl⟩
  | d :: ds, hd, hp, c, c', u, hv, hm, hb, h => by
    have ih := useLoop_draws (vb := vb) (m := m) (fuel := fuel) (R := R) ds (fun d h => hd d (List.mem_cons_of_mem _ h)) (List.pairwise_cons.1 hp).2
    rw [useLoop] at h
    by_cases he : d.tag = "endg".toList
    · rw [if_pos he] at h
      obtain ⟨_, c1, h1, h2⟩ := bind_ok h
      have hs := popStyle_same h1
      obtain ⟨k1, k2, k3⟩ := ih c1 c' u (hs.viewBox.trans hv) (hs.mode.trans hm) (by
        rcases hb with hb | hb
        · exact .inl (hs.path.trans hb)
        · exact .inr fun d h => hb d (List.mem_cons_of_mem _ h)) h2
      refine ⟨?_, k2.trans hs.paths, k3.trans hs.inMask⟩
      rw [k1, hs.path, sto_eq hs.curX hs.curY]
      simp [drawnBy, he]
    · rw [if_neg he] at h
      obtain ⟨_, c1, h1, h2⟩ := bind_ok h
      have hs := pushStyle_same h1
      obtain ⟨hg, hdr⟩ := hd d List.mem_cons_self he
      obtain ⟨df, hdf, hdraw, hkeep⟩ := hdr fuel
      rw [hdf] at h2
      dsimp only at h2
      obtain ⟨_, c2, h3, h4⟩ := bind_ok h2
      have hd2 := hdraw c1 c2 _ (hs.viewBox.trans hv) (hs.mode.trans hm) h3
      have hk := hkeep c1
      rw [h3] at hk
      have e2 := hk.eq
      dsimp only at e2
      obtain ⟨c3, hs3, h5⟩ : ∃ c3, SameDraw c2 c3 ∧ useLoop (drawFuncs fuel (useF fuel)) ds c3 = (.ok u, c') := by
        by_cases hgt : d.tag ≠ "g".toList
        · rw [if_pos hgt] at h4
          obtain ⟨_, c3, h5, h6⟩ := bind_ok h4
          exact ⟨c3, popStyle_same h5, h6⟩
        · rw [if_neg hgt] at h4
          exact ⟨c2, ⟨rfl, rfl, rfl, rfl, rfl, rfl, rfl, rfl⟩, h4⟩
      have hpath : c2.pc.path = c.pc.path ++ (R d).map (sto c.pc) := by
        rw [hd2, sto_eq hs.curX hs.curY, hs.path]
        by_cases hpt : d.tag = "path".toList
        · have : c.pc.path = [] := hb.resolve_right fun h => h d List.mem_cons_self hpt
          rw [this, ite_self]
        · have hf : decide (d.tag = "path".toList ∧ valuesNamed "d" d.attrs ≠ []) = false := decide_eq_false fun h => hpt h.1
          rw [hf]; rfl
      obtain ⟨k1, k2, k3⟩ := ih c3 c' u (by rw [hs3.viewBox, e2]; exact hs.viewBox.trans hv)
        (by rw [hs3.mode, hk.mode]; exact hs.mode.trans hm) (by
          by_cases hgt : d.tag = "g".toList
          · rcases hb with hb | hb
            · left
              rw [hs3.path, hpath, hb, hg hgt]; rfl
            · exact .inr fun d h => hb d (List.mem_cons_of_mem _ h)
          · right
            intro d' hd' hpt
            rcases (List.pairwise_cons.1 hp).1 d' hd' hpt with h | h
            · exact hgt h
            · exact he h) h5
      refine ⟨?_, ?_, ?_⟩
      · rw [k1, hs3.path, hpath, sto_eq (hs3.curX.trans (hk.curX.trans hs.curX)) (hs3.curY.trans (hk.curY.trans hs.curY))]
        unfold drawnBy
        rw [List.flatMap_cons, if_neg he, List.map_append, List.append_assoc]
      · rw [k2, hs3.paths, e2]; exact hs.paths
      · rw [k3, hs3.inMask, e2]; exact hs.inMask

/-! ### In place -/

/-- A state in which shapes are drawn into the document, in their own place. -/
structure Here (vb : Bounds F) (m : ErrorMode) (c : Cursor F) : Prop where
  viewBox : c.svg.viewBox = vb
  mode : c.pc.errorMode = m
  path : c.pc.path = []
  curX : c.pc.curX = num 0
  curY : c.pc.curY = num 0
  inDefs : c.inDefs = false
  inMask : c.inMask = false

theorem here_same {vb : Bounds F} {m : ErrorMode} {c d : Cursor F} (h : SameDraw c d) (hc : Here vb m c) : Here vb m d :=
  ⟨h.1.trans hc.1, h.2.trans hc.2, h.3.trans hc.3, h.4.trans hc.4, h.5.trans hc.5, h.7.trans hc.6, h.8.trans hc.7⟩

/-- Where a path goes. -/
theorem emit_here {c c' : Cursor F} (h : Emit c c') (hm : c.inMask = false) :
    ∃ ps, c'.svg.svgPaths = c.svg.svgPaths ++ ps ∧ ps.flatMap SvgPath.path = c.pc.path ∧ ps.length ≤ 1 ∧ c'.pc.path = [] ∧
      c'.svg.viewBox = c.svg.viewBox ∧ c'.pc.errorMode = c.pc.errorMode ∧ c'.pc.curX = c.pc.curX ∧ c'.pc.curY = c.pc.curY ∧
      c'.inDefs = c.inDefs ∧ c'.inMask = c.inMask := by
  cases h with
  | nothing h => exact ⟨[], by simp, by simp [h], by simp, h, rfl, rfl, rfl, rfl, rfl, rfl⟩
  | lost h hm' => rw [hm] at hm'; cases hm'
  | mask h hm' => rw [hm] at hm'; cases hm'
  | doc h _ st rest hs => exact ⟨[⟨c.pc.path, st⟩], rfl, by simp, by simp, rfl, rfl, rfl, rfl, rfl, rfl, rfl⟩

theorem start_here {vb : Bounds F} {m : ErrorMode} {fuel : Nat} {d : Definition} {R : List (GOp F)} (hd : Drawn vb m d R) {c c' : Cursor F}
    {u : Unit} (hc : Here vb m c) (h : readToken fuel (.start d.tag d.attrs) c = (.ok u, c')) :
    Here vb m c' ∧ ∃ ps, c'.svg.svgPaths = c.svg.svgPaths ++ ps ∧ ps.flatMap SvgPath.path = R.map (GOp.store toFix (num 0) (num 0)) := by
  rw [readToken] at h
  obtain ⟨_, c1, h1, h2⟩ := bind_ok h
  have hs := pushStyle_same h1
  have hc1 := here_same hs hc
  obtain ⟨-, hdr⟩ := hd
  obtain ⟨df, hdf, hdraw, hkeep⟩ := hdr fuel
  have hk := hkeep c1
  rcases readStartElement_cases fuel d.tag d.attrs c1 with ⟨k, -⟩ | ⟨-, ⟨k, -⟩ | ⟨df', hdf', ⟨hn, h'⟩ | ⟨htm, c2, hE, h'⟩ | ⟨htm, -, h'⟩⟩⟩
  · rw [hc1.inDefs] at k; cases k
  · rw [hdf] at k; cases k
  · rw [hdf] at hdf'
    cases hdf'
    rw [h2] at h'
    rw [← h'] at hn
    exact absurd trivial hn
  · rw [hdf] at hdf'
    cases hdf'
    rw [h2] at h'
    obtain ⟨e1, rfl⟩ := Prod.mk.inj h'
    rcases hx : df d.attrs c1 with ⟨r, c2⟩
    rw [hx] at e1 hE hk
    dsimp only at e1 hE hk
    subst e1
    have hp := hdraw c1 c2 _ hc1.viewBox hc1.mode hx
    have e2 := hk.eq
    have hm2 : c2.inMask = false := by rw [e2]; exact hc1.inMask
    obtain ⟨ps, p1, p2, -, p3, p4, p5, p6, p7, p8, p9⟩ := emit_here hE hm2
    refine ⟨⟨?_, ?_, p3, ?_, ?_, ?_, ?_⟩, ps, ?_, ?_⟩
    · rw [p4, e2]; exact hc1.viewBox
    · rw [p5, hk.mode]; exact hc1.mode
    · rw [p6, hk.curX]; exact hc1.curX
    · rw [p7, hk.curY]; exact hc1.curY
    · rw [p8, e2]; exact hc1.inDefs
    · rw [p9]; exact hm2
    · rw [p1, e2]
      show c1.svg.svgPaths ++ ps = _
      rw [hs.paths]
    · rw [p2, hp, hc1.path, ite_self, List.nil_append]
      unfold sto
      rw [hc1.curX, hc1.curY]
  · rw [h'] at h2; cases h2

theorem stop_here {vb : Bounds F} {m : ErrorMode} {fuel : Nat} {name : Str} {c c' : Cursor F} {u : Unit} (hc : Here vb m c)
    (hn : name ≠ "mask".toList ∧ name ≠ "title".toList ∧ name ≠ "desc".toList ∧ name ≠ "defs".toList)
    (h : readToken fuel (.stop name) c = (.ok u, c')) : Here vb m c' ∧ c'.svg.svgPaths = c.svg.svgPaths := by
  rw [readToken] at h
  unfold readEndElement at h
  obtain ⟨_, c1, h1, h2⟩ := bind_ok h
  have hs := popStyle_same h1
  have hc1 := here_same hs hc
  rw [SM.modify_run] at h2
  obtain ⟨-, rfl⟩ := Prod.mk.inj h2
  rw [if_neg hn.1, if_neg hn.2.1, if_neg hn.2.2.1, if_neg hn.2.2.2]
  by_cases hg : name = "g".toList
  · rw [if_pos hg, if_neg (by rw [hc1.inDefs]; decide)]
    exact ⟨hc1, hs.paths⟩
  rw [if_neg hg]
  split
  · exact ⟨⟨hc1.1, hc1.2, hc1.3, hc1.4, hc1.5, hc1.6, hc1.7⟩, hs.paths⟩
  · exact ⟨hc1, hs.paths⟩

theorem shiftable_tag {d : Definition} (h : Shiftable d) :
    d.tag ∈ ["g", "endg", "line", "polyline", "polygon", "path", "circle", "ellipse", "rect"].map String.toList := by
  rcases h with (h | ⟨h, -⟩ | ⟨h, -⟩) | h | ⟨h, -⟩
  · simp only [List.mem_cons, List.not_mem_nil, or_false] at h
    rcases h with h | h | h <;> rw [h] <;> decide
  · rcases h with h | h <;> rw [h] <;> decide
  · rw [h]; decide
  · rcases h with h | h <;> rw [h] <;> decide
  · rw [h]; decide

theorem content_here {vb : Bounds F} {m : ErrorMode} {fuel : Nat} {R : Definition → List (GOp F)} : ∀ (ds : List Definition),
    (∀ d ∈ ds, Shiftable d) → (∀ d ∈ ds, d.tag ≠ "endg".toList → Drawn vb m d (R d)) → ∀ (c c' : Cursor F), Here vb m c →
      readTokens fuel (content ds) c = (.ok (), c') →
      ∃ ps, c'.svg.svgPaths = c.svg.svgPaths ++ ps ∧ ps.flatMap SvgPath.path = (drawnBy R ds).map (GOp.store toFix (num 0) (num 0))
  | [], _, _, c, c', _, h => by cases h; exact ⟨[], by simp, rfl⟩
  | d :: ds, hsh, hd, c, c', hc, h => by
    have ih := content_here (vb := vb) (m := m) (fuel := fuel) (R := R) ds (fun d h => hsh d (List.mem_cons_of_mem _ h))
      (fun d h => hd d (List.mem_cons_of_mem _ h))
    have hnames : ∀ n ∈ ["g", "endg", "line", "polyline", "polygon", "path", "circle", "ellipse", "rect"].map String.toList,
        n ≠ "mask".toList ∧ n ≠ "title".toList ∧ n ≠ "desc".toList ∧ n ≠ "defs".toList := by decide
    obtain ⟨c1, h1, h2⟩ : ∃ c1, readTokens fuel (if d.tag = "endg".toList then [.stop "g".toList]
        else if d.tag = "g".toList then [.start d.tag d.attrs] else [.start d.tag d.attrs, .stop d.tag]) c = (.ok (), c1) ∧
        readTokens fuel (content ds) c1 = (.ok (), c') := read_split h
    have key : Here vb m c1 ∧ ∃ ps, c1.svg.svgPaths = c.svg.svgPaths ++ ps ∧
        ps.flatMap SvgPath.path = (if d.tag = "endg".toList then [] else R d).map (GOp.store toFix (num 0) (num 0)) := by
      by_cases he : d.tag = "endg".toList
      · rw [if_pos he] at h1 ⊢
        rw [readTokens_cons] at h1
        obtain ⟨_, c2, k1, k2⟩ := bind_ok h1
        cases k2
        obtain ⟨j1, j2⟩ := stop_here hc (hnames "g".toList (by decide)) k1
        exact ⟨j1, [], by simp [j2], rfl⟩
      · rw [if_neg he] at h1 ⊢
        have hdr := hd d List.mem_cons_self he
        by_cases hg : d.tag = "g".toList
        · rw [if_pos hg, readTokens_cons] at h1
          obtain ⟨_, c2, k1, k2⟩ := bind_ok h1
          cases k2
          exact start_here hdr hc k1
        · rw [if_neg hg, readTokens_cons] at h1
          obtain ⟨_, c2, k1, k2⟩ := bind_ok h1
          rw [readTokens_cons] at k2
          obtain ⟨_, c3, k3, k4⟩ := bind_ok k2
          cases k4
          obtain ⟨j1, ps, j2, j3⟩ := start_here hdr hc k1
          obtain ⟨i1, i2⟩ := stop_here j1 (hnames d.tag (shiftable_tag (hsh d List.mem_cons_self))) k3
          exact ⟨i1, ps, i2.trans j2, j3⟩
    obtain ⟨hc1, ps, p1, p2⟩ := key
    obtain ⟨qs, q1, q2⟩ := ih c1 c' hc1 h2
    refine ⟨ps ++ qs, by rw [q1, p1, List.append_assoc], ?_⟩
    rw [List.flatMap_append, p2, q2, ← List.map_append]
    rfl

/-! ### The offset is gone -/

/-- No offset. -/
def NoOffset (c : Cursor F) : Prop := c.pc.curX = num 0 ∧ c.pc.curY = num 0

theorem useF_offset (fuel : Nat) (attrs : List Attr) (c : Cursor F) (hc : NoOffset c) : NoOffset (useF fuel attrs c).2 := by
  cases fuel with
  | zero => exact hc
  | succ fuel =>
    rcases useF_cases fuel attrs c with ⟨e, -, hu⟩ | ⟨v, -, hu⟩
    · rw [hu]; exact hc
    · rw [hu]; exact ⟨rfl, rfl⟩

theorem emit_offset {c c' : Cursor F} (h : Emit c c') (hc : NoOffset c) : NoOffset c' := by
  cases h <;> exact hc

theorem pushStyle_offset (attrs : List Attr) (c : Cursor F) (hc : NoOffset c) : NoOffset (pushStyle attrs c).2 := by
  rcases pushStyle_frame attrs c with ⟨top, rest, st, c1, -, -, hs, hp⟩ | ⟨-, hs⟩
  · have := styleR_same hs
    rw [hp]; exact ⟨this.curX.trans hc.1, this.curY.trans hc.2⟩
  · have := styleR_same hs
    exact ⟨this.curX.trans hc.1, this.curY.trans hc.2⟩

theorem readStart_offset (fuel : Nat) (name : Str) (attrs : List Attr) (c : Cursor F) (hc : NoOffset c) :
    NoOffset (readStartElement fuel name attrs c).2 := by
  have hdf : ∀ df, drawFuncs fuel (useF fuel) name = some df → NoOffset (df attrs c).2 := by
    intro df h
    by_cases hu : name = "use".toList
    · subst hu; rw [drawFuncs_use] at h; cases h; exact useF_offset fuel attrs c hc
    · have := drawFuncs_plain h hu attrs c
      exact ⟨this.curX.trans hc.1, this.curY.trans hc.2⟩
  rcases readStartElement_cases fuel name attrs c with ⟨-, -, -, -, h⟩ | ⟨-, ⟨-, h⟩ | ⟨df, hd, ⟨-, h⟩ | ⟨-, c', hE, h⟩ | ⟨-, -, h⟩⟩⟩
  · rw [h]
    have : (recordDef name attrs c).pc = c.pc := by
      unfold recordDef
      dsimp only
      split
      · by_cases hi : lastID attrs ≠ []
        · rw [if_pos hi]
        · rw [if_neg hi]
      · rfl
    exact ⟨(congrArg PathCursor.curX this).trans hc.1, (congrArg PathCursor.curY this).trans hc.2⟩
  · rw [h]
    have := styleR_same (handleError_styleR (.cannotProcess name) c)
    exact ⟨this.curX.trans hc.1, this.curY.trans hc.2⟩
  · rw [h]; exact hdf df hd
  · rw [h]; exact emit_offset hE (hdf df hd)
  · rw [h]; exact hdf df hd

theorem readToken_offset (fuel : Nat) (t : Token) (c : Cursor F) (hc : NoOffset c) : NoOffset (readToken fuel t c).2 := by
  cases t with
  | start name attrs =>
    rw [readToken, SM.bind_run]
    have h1 := pushStyle_offset attrs c hc
    rcases hp : pushStyle attrs c with ⟨r, d⟩
    rw [hp] at h1
    cases r with
    | ok u => exact readStart_offset fuel name attrs d h1
    | err e => exact h1
    | panic e => exact h1
    | diverge => exact h1
  | stop name =>
    rw [readToken]
    unfold readEndElement
    rw [SM.bind_run]
    unfold popStyle
    cases hs : c.styleStack with
    | nil => exact hc
    | cons a b =>
      dsimp only
      rw [SM.modify_run]
      dsimp only
      split_ifs <;> (try split) <;> exact hc
  | chars s =>
    have e := (readChars_keeps s c).eq
    show NoOffset (readChars s c).2
    rw [e]; exact hc
  | other => exact hc

theorem readTokens_offset (fuel : Nat) : ∀ (ts : List Token) (c : Cursor F), NoOffset c → NoOffset (readTokens fuel ts c).2
  | [], _, hc => hc
  | t :: ts, c, hc => by
    rw [readTokens_cons, SM.bind_run]
    have h1 := readToken_offset fuel t c hc
    rcases hp : readToken fuel t c with ⟨r, d⟩
    rw [hp] at h1
    cases r with
    | ok u => exact readTokens_offset fuel ts d h1
    | err e => exact h1
    | panic e => exact h1
    | diverge => exact h1

/-! ### Reading -/

theorem yields_ok {fuel : Nat} {m : ErrorMode} {ts : List Token} {s : Svg F} (h : Yields fuel m ts s) :
    ∃ c, readTokens fuel ts (initCursor (F := F) m) = (.ok (), c) ∧ c.svg = s := by
  obtain ⟨c, hc⟩ := reads_ok (F := F) (fuel := fuel) (m := m) (ts := ts) (fun e => ⟨s, h e⟩)
  obtain ⟨l, h0⟩ := h 0
  rw [parse_cut hc] at h0
  cases h0
  exact ⟨c, hc, rfl⟩

theorem ok_yields {fuel : Nat} {m : ErrorMode} {ts : List Token} {c : Cursor F} (h : readTokens fuel ts (initCursor (F := F) m) = (.ok (), c)) :
    Yields fuel m ts c.svg := fun e => ⟨c.pc.log, by unfold parse; rw [h]⟩

/-- The steps of a loop over the attributes, for a variable that is set by the attributes of one name. -/
theorem loop_var {β γ : Type} {step : β → Attr → Res β} (f : β → γ) (n : String) (P : Attr → γ → Prop)
    (h1 : ∀ b a b', a.name = n.toList → step b a = .ok b' → P a (f b')) (h2 : ∀ b a b', a.name ≠ n.toList → step b a = .ok b' → f b' = f b) :
    ∀ (attrs : List Attr) (b b' : β), Res.loop step b attrs = .ok b' →
      (∃ a ∈ attrs, a.name = n.toList ∧ P a (f b')) ∨ ((∀ a ∈ attrs, ¬ a.name = n.toList) ∧ f b' = f b)
  | [], b, b', h => by cases h; exact .inr ⟨List.forall_mem_nil _, rfl⟩
  | a :: as, b, b', h => by
    rw [Res.loop] at h
    cases hs : step b a with
    | ok b1 =>
      rw [hs] at h
      rcases loop_var f n P h1 h2 as b1 b' h with ⟨a', k1, k2⟩ | ⟨k1, k2⟩
      · exact .inl ⟨a', List.mem_cons_of_mem _ k1, k2⟩
      · by_cases hn : a.name = n.toList
        · exact .inl ⟨a, List.mem_cons_self, hn, by rw [k2]; exact h1 b a b1 hn hs⟩
        · refine .inr ⟨fun a' ha => ?_, by rw [k2, h2 b a b1 hn hs]⟩
          rcases List.mem_cons.1 ha with rfl | ha
          · exact hn
          · exact k1 a' ha
    | err e => rw [hs] at h; cases h
    | panic e => rw [hs] at h; cases h
    | diverge => rw [hs] at h; cases h

theorem res_bind_ok {α β : Type} {r : Res α} {f : α → Res β} {b : β} (h : (r >>= f) = .ok b) : ∃ a, r = .ok a ∧ f a = .ok b := by
  cases r with
  | ok a => exact ⟨a, rfl, h⟩
  | err e => cases h
  | panic e => cases h
  | diverge => cases h

theorem use_vars {vb : Bounds F} {attrs : List Attr} (hd : Distinct attrs) {x y : F} (h1 : Len vb attrs "x" .width x)
    (h2 : Len vb attrs "y" .height y) {v : UseVars F} (h : Res.loop (useAttr vb) ⟨[], num 0, num 0⟩ attrs = .ok v) : v.x = x ∧ v.y = y := by
  have sx : ∀ (b : UseVars F) a b', a.name = "x".toList → useAttr vb b a = .ok b' → resolveUnit vb a.value .width = .ok b'.x := by
    intro b a b' hn hs
    unfold useAttr at hs
    rw [if_neg (by rw [hn]; decide), if_pos hn] at hs
    obtain ⟨x, k1, k2⟩ := res_bind_ok hs
    cases k2; exact k1
  have sy : ∀ (b : UseVars F) a b', a.name = "y".toList → useAttr vb b a = .ok b' → resolveUnit vb a.value .height = .ok b'.y := by
    intro b a b' hn hs
    unfold useAttr at hs
    rw [if_neg (by rw [hn]; decide), if_neg (by rw [hn]; decide), if_pos hn] at hs
    obtain ⟨x, k1, k2⟩ := res_bind_ok hs
    cases k2; exact k1
  have nx : ∀ (b : UseVars F) a b', a.name ≠ "x".toList → useAttr vb b a = .ok b' → b'.x = b.x := by
    intro b a b' hn hs
    unfold useAttr at hs
    by_cases k1 : a.name = "href".toList
    · rw [if_pos k1] at hs; cases hs; rfl
    rw [if_neg k1, if_neg hn] at hs
    by_cases k2 : a.name = "y".toList
    · rw [if_pos k2] at hs
      obtain ⟨x, -, k⟩ := res_bind_ok hs
      cases k; rfl
    · rw [if_neg k2] at hs; cases hs; rfl
  have ny : ∀ (b : UseVars F) a b', a.name ≠ "y".toList → useAttr vb b a = .ok b' → b'.y = b.y := by
    intro b a b' hn hs
    unfold useAttr at hs
    by_cases k1 : a.name = "href".toList
    · rw [if_pos k1] at hs; cases hs; rfl
    rw [if_neg k1] at hs
    by_cases k2 : a.name = "x".toList
    · rw [if_pos k2] at hs
      obtain ⟨x, -, k⟩ := res_bind_ok hs
      cases k; rfl
    · rw [if_neg k2, if_neg hn] at hs; cases hs; rfl
  exact ⟨len_of_loop h1 (loop_var UseVars.x "x" (fun a x => resolveUnit vb a.value .width = .ok x) sx nx attrs _ _ h) hd, len_of_loop h2 (loop_var UseVars.y "y" (fun a x => resolveUnit vb a.value .height = .ok x) sy ny attrs _ _ h) hd⟩

/-- The state after tokens outside `defs` and masks. -/
theorem here_of {fuel : Nat} {m : ErrorMode} {pre : List Token} {c : Cursor F} (hr : readTokens fuel pre (initCursor (F := F) m) = (.ok (), c))
    {ch : List Elem} (hf : FlagsAt ch c) (hd : inside "defs" ch = false) (hm : inside "mask" ch = false) : Here c.svg.viewBox m c := by
  have h1 := readTokens_clean fuel pre (initCursor (F := F) m) rfl (by rw [hr]; trivial)
  have h2 := readTokens_offset fuel pre (initCursor (F := F) m) ⟨rfl, rfl⟩
  have h3 := (readTokens_grow fuel pre (initCursor (F := F) m)).mode
  rw [hr] at h1 h2 h3
  exact ⟨rfl, h3, h1, h2.1, h2.2, hf.inDefs.trans hd, by rw [hf.inMask, hm]; rfl⟩

/-- What a `use` element draws. -/
theorem use_here {vb : Bounds F} {m : ErrorMode} {fuel : Nat} {R : Definition → List (GOp F)} {attrs : List Attr} {ds : List Definition}
    {id : Str} (hid : refOf attrs = some id) (hd : ∀ d ∈ ds, d.tag ≠ "endg".toList → Drawn vb m d (R d)) (hp : PathFirst ds)
    {c c' : Cursor F} (hf : c.svg.defs.find id = some ds) (hc : Here vb m c) (hdi : Distinct attrs) {x y : F} (hx : Len vb attrs "x" .width x)
    (hy : Len vb attrs "y" .height y) (h : readToken fuel (.start "use".toList attrs) c = (.ok (), c')) :
    ∃ qs, c'.svg.svgPaths = c.svg.svgPaths ++ qs ∧ qs.length ≤ 1 ∧ qs.flatMap SvgPath.path = (drawnBy R ds).map (GOp.store toFix x y) := by
  rw [readToken] at h
  obtain ⟨_, c1, h1, h2⟩ := bind_ok h
  have hs := pushStyle_same h1
  have hc1 := here_same hs hc
  have hdefs : c1.svg.defs = c.svg.defs := by
    have := (pushStyle_elem attrs c).defs
    rw [h1] at this; exact this
  rcases readStartElement_cases fuel "use".toList attrs c1 with ⟨k, -⟩ | ⟨-, ⟨k, -⟩ | ⟨df', hdf', ⟨hn, h'⟩ | ⟨htm, c2, hE, h'⟩ | ⟨htm, -, h'⟩⟩⟩
  · rw [hc1.inDefs] at k; cases k
  · cases k
  · rw [h2] at h'
    rw [← h'] at hn
    exact absurd trivial hn
  · rw [drawFuncs_use] at hdf'
    cases hdf'
    rw [h2] at h'
    obtain ⟨e1, rfl⟩ := Prod.mk.inj h'
    cases fuel with
    | zero => cases e1
    | succ fuel =>
      rcases useF_cases fuel attrs c1 with ⟨e, -, hu⟩ | ⟨v, hv, hu⟩
      · rw [hu] at e1; cases e1
      · rw [hc1.viewBox] at hv
        obtain ⟨rfl, rfl⟩ := use_vars hdi hx hy hv
        rw [hu] at e1 hE
        unfold withOffset at e1 hE
        rcases useBody_cases (drawFuncs fuel (useF fuel)) attrs { c1 with pc := { c1.pc with curX := v.x, curY := v.y } } with
          ⟨-, h', -⟩ | ⟨-, h', -⟩ | ⟨id', h', hf', -⟩ | ⟨id', ds', h', hf', hb⟩
        · rw [h'] at hid; cases hid
        · rw [h'] at hid; cases hid
        · rw [h'] at hid; cases hid
          rw [← hdefs] at hf
          have := hf'.symm.trans hf
          cases this
        · rw [h'] at hid; cases hid
          rw [← hdefs] at hf
          obtain rfl := Option.some.inj (hf'.symm.trans hf)
          rw [hb] at e1 hE
          rcases hl : useLoop (drawFuncs fuel (useF fuel)) ds' { c1 with pc := { c1.pc with curX := v.x, curY := v.y } } with ⟨r, c3⟩
          rw [hl] at e1 hE
          dsimp only at e1 hE
          subst e1
          obtain ⟨k1, k2, k3⟩ := useLoop_draws ds' hd hp { c1 with pc := { c1.pc with curX := v.x, curY := v.y } } c3 () hc1.viewBox hc1.mode
            (.inl hc1.path) hl
          obtain ⟨ps, p1, p2, p3, -⟩ := emit_here hE (k3.trans hc1.inMask)
          refine ⟨ps, ?_, p3, ?_⟩
          · rw [p1]
            show c3.svg.svgPaths ++ ps = _
            rw [k2]
            show c1.svg.svgPaths ++ ps = _
            rw [hs.paths]
          · rw [p2]
            show c3.pc.path = _
            rw [k1]
            show c1.pc.path ++ _ = _
            rw [hc1.path]
            rfl
  · rw [h'] at h2; cases h2

end GoSvg
