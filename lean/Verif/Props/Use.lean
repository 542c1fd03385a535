import Verif.Lemmas.UseEnds
import Verif.Props.Masks
import Verif.Lemmas.Docs

/-! C42: expanding `use`. -/

set_option linter.unusedSectionVars false

namespace GoSvg

open Spec

variable {F : Type} [GoFloat F] [GoEnv]

open SM (get modify throw lift panic diverge forEach)

theorem reads_ok {fuel : Nat} {m : ErrorMode} {ts : List Token} (h : Reads F fuel m ts) :
    ∃ c, readTokens fuel ts (initCursor (F := F) m) = (.ok (), c) := by
  obtain ⟨s, l, h0⟩ := h 0
  obtain ⟨s', l', h1⟩ := h 1
  obtain ⟨r, c, hr, -, -, ⟨rfl, -⟩ | ⟨x, rfl, hx⟩⟩ := parse_error_inv h0
  · exact ⟨c, hr⟩
  · obtain ⟨r, c', hr', -, -, ⟨rfl, -⟩ | ⟨x', rfl, hx'⟩⟩ := parse_error_inv h1
    · rw [hr] at hr'; cases hr'
    · rw [hr] at hr'; cases hr'; cases hx; cases hx'

theorem ok_reads {fuel : Nat} {m : ErrorMode} {ts : List Token} {c : Cursor F} (h : readTokens fuel ts (initCursor (F := F) m) = (.ok (), c)) :
    Reads F fuel m ts := by
  intro e
  refine ⟨c.svg, c.pc.log, ?_⟩
  unfold parse
  rw [h]

theorem tidy_reads {fuel : Nat} {m : ErrorMode} {pre : List Token} {attrs : List Attr} (ht : Tidy (pre ++ [.start "use".toList attrs]))
    {c : Cursor F} (h : readTokens fuel pre (initCursor (F := F) m) = (.ok (), c)) {ch : List Elem} (ho : openFrom [] pre = some ch) :
    TableAt (definitionsIn pre) c ∧ TidyRest (· = .color) ch [.start "use".toList attrs] c ∧ c.pc.path = [] := by
  obtain ⟨h1, h2⟩ := tidy_table pre [] ch _ c () {} [.start "use".toList attrs] (tidy_start m ht (tokensOK_color _)) (tableAt_init m) ho h
  refine ⟨h1, h2, ?_⟩
  have := readTokens_clean fuel pre (initCursor (F := F) m) rfl (by rw [h]; trivial)
  rw [h] at this
  exact this

/-! ### C42: termination -/

/-- C42, partial: in a tidy document whose definitions do not refer to themselves, parsing ends: from some fuel on the result is one
and the same, and it is not that the fuel has run out. Missing: circles, for which it is false, see `C42_circle_false`; and documents
that are not tidy. -/
theorem C42_terminates_partial (h : AnglesClose F) {ts : List Token} (ht : Tidy ts) (ha : Acyclic ts) (m : ErrorMode) (fin : StreamEnd) :
    ∃ (n : Nat) (o : Outcome F), o ≠ .diverge ∧ ∀ fuel, n ≤ fuel → parse fuel m ts fin = o := by
  obtain ⟨rank, hr⟩ := ha
  obtain ⟨n, hn⟩ := refs_bounded rank ts
  have hno : parse (F := F) (n + 1) m ts fin ≠ .diverge := by
    intro hd
    obtain ⟨ch, ho⟩ := Option.isSome_iff_exists.1 ht.nested
    have := readTokens_endsUse h (Nat.le_refl (n + 1)) ts [] ch (initCursor (F := F) m) {} ho hn hr
      (tidy_start m ht (fun t _ => by cases t <;> first | exact attrOK_any _ | trivial)) (tableAt_init m)
    rw [parse_diverge hd] at this
    exact this
  exact ⟨n + 1, _, hno, fun fuel hf => parse_more hf hno⟩

/-- The same in exact arithmetic. -/
theorem C42_terminates_real_partial {ts : List Token} (ht : Tidy ts) (ha : Acyclic ts) (m : ErrorMode) (fin : StreamEnd) :
    ∃ (n : Nat) (o : Outcome ℝ), o ≠ .diverge ∧ ∀ fuel, n ≤ fuel → parse fuel m ts fin = o :=
  C42_terminates_partial anglesClose_real ht ha m fin

/-- C42 fails for definitions that refer to each other in a circle: a `use` of one of them never ends, whatever the length of the
circle, the rest of the document and the error mode. (In Go the recursion runs until the stack overflows.) -/
theorem C42_circle_false {fuel0 : Nat} {m : ErrorMode} {pre : List Token} {attrs : List Attr} {ids : List Str} {id : Str}
    (hr : Reads F fuel0 m pre) (ht : Tidy (pre ++ [.start "use".toList attrs])) {ch : List Elem} (ho : openFrom [] pre = some ch)
    (hd : inside "defs" ch = false) (hc : Circle F ids pre) (hu : Unstyled attrs) (hp : Placed F attrs) (hid : refOf attrs = some id)
    (hm : id ∈ ids) (rest : List Token) (fin : StreamEnd) (fuel : Nat) :
    parse (F := F) fuel m (pre ++ .start "use".toList attrs :: rest) fin = .diverge := by
  have key : (readTokens fuel (pre ++ .start "use".toList attrs :: rest) (initCursor (F := F) m)).1 = .diverge := by
    by_cases hdv : (readTokens fuel pre (initCursor (F := F) m)).1 = .diverge
    · rw [readTokens_append, SM.bind_run]
      rcases hx : readTokens fuel pre (initCursor (F := F) m) with ⟨r, c⟩
      rw [hx] at hdv
      dsimp only at hdv
      subst hdv
      rfl
    · obtain ⟨c0, hc0⟩ := reads_ok hr
      have hok : readTokens fuel pre (initCursor (F := F) m) = (.ok (), c0) := by
        rcases Nat.le_total fuel fuel0 with hle | hle
        · rw [← hc0]; exact (readTokens_ext hle pre _ hdv).symm
        · rw [← hc0]; exact readTokens_ext hle pre _ (by rw [hc0]; intro h; cases h)
      obtain ⟨htab, hrest, -⟩ := tidy_reads ht hok ho
      rw [readTokens_append, SM.bind_run, hok]
      dsimp only
      rw [readTokens_cons, SM.bind_run, readToken, SM.bind_run]
      have hne := hrest.tidy.ne
      obtain ⟨top, below, hst⟩ : ∃ top below, c0.styleStack = top :: below := by
        cases h : c0.styleStack with
        | nil => exact absurd h hne
        | cons t r => exact ⟨t, r, rfl⟩
      rw [pushStyle_unstyled hu hst]
      dsimp only
      have hloop : (useF fuel attrs { c0 with styleStack := top :: c0.styleStack }).1 = .diverge := by
        refine useF_circle (ids := ids) fuel attrs _ (by simp) (fun id hid => ?_) hp ⟨id, hm, hid⟩
        obtain ⟨d, ds, h1, h2⟩ := hc id hid
        exact ⟨d, ds, by rw [← h1]; exact htab.done id, h2⟩
      have hnd : ({ c0 with styleStack := top :: c0.styleStack } : Cursor F).inDefs = false := hrest.tidy.flags.inDefs.trans hd
      rcases readStartElement_cases fuel "use".toList attrs { c0 with styleStack := top :: c0.styleStack } with
        ⟨h1, -⟩ | ⟨-, ⟨h1, -⟩ | ⟨df, hdr, ⟨hn, h'⟩ | ⟨htm, -⟩ | ⟨htm, -⟩⟩⟩
      · rw [hnd] at h1; cases h1
      · cases h1
      · rw [drawFuncs_use] at hdr; cases hdr
        rw [h']
        generalize useF (F := F) fuel attrs _ = p at hloop ⊢
        obtain ⟨r, c2⟩ := p
        dsimp only at hloop
        subst hloop
        rfl
      · rw [drawFuncs_use] at hdr; cases hdr
        rw [hloop] at htm; exact htm.elim
      · rw [drawFuncs_use] at hdr; cases hdr
        rw [hloop] at htm; exact htm.elim
  unfold parse
  rcases hx : readTokens fuel (pre ++ .start "use".toList attrs :: rest) (initCursor (F := F) m) with ⟨r, c⟩
  rw [hx] at key
  dsimp only at key
  subst key
  rfl

/-! ### C42: errors -/

theorem useF_bad {fuel : Nat} {attrs : List Attr} {c : Cursor F}
    (hb : refOf attrs = none ∨ ∃ id, refOf attrs = some id ∧ c.svg.defs.find id = none) :
    ∃ e, useF (fuel + 1) attrs c = (.err e, c) ∨ useF (fuel + 1) attrs c = (.err e, atOffset (num 0) (num 0) c) := by
  rcases useF_cases fuel attrs c with ⟨e, -, hu⟩ | ⟨v, -, hu⟩
  · exact ⟨e, .inl hu⟩
  · rw [hu]
    unfold withOffset
    rcases useBody_cases (drawFuncs fuel (useF fuel)) attrs { c with pc := { c.pc with curX := v.x, curY := v.y } } with
      ⟨-, -, h'⟩ | ⟨-, -, h'⟩ | ⟨id, -, -, h'⟩ | ⟨id, ds, h1, h2, -⟩
    · rw [h']; exact ⟨_, .inr rfl⟩
    · rw [h']; exact ⟨_, .inr rfl⟩
    · rw [h']; exact ⟨_, .inr rfl⟩
    · rcases hb with hb | ⟨id', hb, hf⟩
      · rw [h1] at hb; cases hb
      · rw [h1] at hb; cases hb
        have := h2.symm.trans hf
        cases this

/-- The error for what `use` refers to. -/
def useError (attrs : List Attr) : Err :=
  if lastNamed "href" attrs = [] then .useNoHref else if refOf attrs = none then .useNotID else .useNotFound

theorem useF_error {fuel : Nat} {attrs : List Attr} {c : Cursor F} (hp : Placed F attrs)
    (hb : refOf attrs = none ∨ ∃ id, refOf attrs = some id ∧ c.svg.defs.find id = none) :
    useF (fuel + 1) attrs c = (.err (useError attrs), atOffset (num 0) (num 0) c) := by
  unfold useError
  rcases useF_cases fuel attrs c with ⟨e, he, hu⟩ | ⟨v, -, hu⟩
  · obtain ⟨w, hw⟩ := placed_ok hp c.svg.viewBox ⟨[], num 0, num 0⟩
    rw [hw] at he; cases he
  · rw [hu]
    unfold withOffset
    rcases useBody_cases (drawFuncs fuel (useF fuel)) attrs { c with pc := { c.pc with curX := v.x, curY := v.y } } with
      ⟨h1, -, h'⟩ | ⟨h1, h2, h'⟩ | ⟨id, h1, -, h'⟩ | ⟨id, ds, h1, h2, -⟩
    · rw [h', if_pos h1]; rfl
    · rw [h', if_neg h1, if_pos h2]; rfl
    · have h0 : lastNamed "href" attrs ≠ [] := by
        intro h; unfold refOf at h1; rw [h] at h1; cases h1
      rw [h', if_neg h0, if_neg (by rw [h1]; exact fun h => nomatch h)]; rfl
    · rcases hb with hb | ⟨id', hb, hf⟩
      · rw [h1] at hb; cases hb
      · rw [h1] at hb; cases hb
        have := h2.symm.trans hf
        cases this

theorem use_start {fuel : Nat} {attrs : List Attr} {d : Cursor F} (hnd : d.inDefs = false) (hp : d.pc.path = []) {e : Err} {c' : Cursor F}
    (hu : useF fuel attrs d = (.err e, c')) (hc : c' = d ∨ c' = atOffset (num 0) (num 0) d) :
    readStartElement fuel "use".toList attrs d = (.err e, c') := by
  unfold readStartElement
  dsimp only
  rw [if_neg (by rw [hnd]; exact fun h => absurd h.1 (by decide)), drawFuncs_use]
  dsimp only
  rw [hu]
  dsimp only
  have hpath : c'.pc.path = [] := by rcases hc with rfl | rfl <;> exact hp
  unfold emitPath
  rw [hpath]

/-- C42, partial (documents that are tidy up to the element): if a `use` element has no reference, an empty one, one that is not
`#id`, or one to an `id` that is not defined so far, then parsing stops there with an error, in every error mode; nothing is drawn for
the element, and what follows is not read. (Or the parser panics for a colour of the element, see C34.) -/
theorem C42_errors_partial {fuel : Nat} {m : ErrorMode} {pre : List Token} {attrs : List Attr} (hr : Reads F (fuel + 1) m pre)
    (ht : Tidy (pre ++ [.start "use".toList attrs])) {ch : List Elem} (ho : openFrom [] pre = some ch) (hd : inside "defs" ch = false)
    (hb : refOf attrs = none ∨ ∃ id, refOf attrs = some id ∧ definitionOf id pre = none) :
    (∃ (s : Svg F) (e : Err) (l : List Msg), (∀ rest fin, parse (fuel + 1) m (pre ++ .start "use".toList attrs :: rest) fin = .done (some s) (some e) l) ∧
      s.svgPaths = Outcome.paths (parse (F := F) (fuel + 1) m pre (.error 0))) ∨
    ∀ rest fin, parse (F := F) (fuel + 1) m (pre ++ .start "use".toList attrs :: rest) fin = .panic .color := by
  obtain ⟨c0, hok⟩ := reads_ok hr
  obtain ⟨htab, hrest, hpath⟩ := tidy_reads ht hok ho
  have hrun : ∀ rest, readTokens (fuel + 1) (pre ++ .start "use".toList attrs :: rest) (initCursor (F := F) m) =
      (readToken (fuel + 1) (.start "use".toList attrs) >>= fun _ => readTokens (fuel + 1) rest) c0 := by
    intro rest
    rw [readTokens_append, SM.bind_run, hok]
    rfl
  have hpaths : Outcome.paths (parse (F := F) (fuel + 1) m pre (.error 0)) = c0.svg.svgPaths := by
    rw [parse_cut hok]; rfl
  rw [hpaths]
  have hne := hrest.tidy.ne
  have hw := pushStyle_within (B := (· = .color)) attrs c0 (.inl hne) (attrOK_color attrs).paint
  have he := pushStyle_elem attrs c0
  have hF := pushStyle_flag attrs c0
  have hP : (pushStyle attrs c0).2.pc.path = c0.pc.path := by
    rcases pushStyle_frame attrs c0 with ⟨_, _, _, c1, -, -, hR, h⟩ | ⟨-, hR⟩
    · rw [h]; have e := hR.eq; dsimp only at e ⊢; rw [e]
    · have e := hR.eq; dsimp only at e; rw [e]
  have hpush : readToken (F := F) (fuel + 1) (.start "use".toList attrs) c0 = (pushStyle attrs >>= fun _ => readStartElement (fuel + 1) "use".toList attrs) c0 := rfl
  rw [SM.bind_run] at hpush
  rcases hp : pushStyle attrs c0 with ⟨r, d⟩
  rw [hp] at hw he hF hP hpush
  cases r with
  | err e =>
    left
    refine ⟨d.svg, e, d.pc.log, fun rest fin => ?_, he.svgPaths⟩
    unfold parse
    rw [hrun, SM.bind_run, hpush]
  | panic s =>
    right
    intro rest fin
    have hs : s = .color := hw
    subst hs
    unfold parse
    rw [hrun, SM.bind_run, hpush]
  | diverge => exact absurd hw id
  | ok u =>
    left
    dsimp only at hpush he hF hP
    have hb' : refOf attrs = none ∨ ∃ id, refOf attrs = some id ∧ d.svg.defs.find id = none := by
      refine hb.imp id fun ⟨id, h1, h2⟩ => ⟨id, h1, ?_⟩
      rw [he.defs, htab.done]; exact h2
    obtain ⟨e, hu⟩ := useF_bad (fuel := fuel) hb'
    have hnd : d.inDefs = false := by rw [hF.inDefs, hrest.tidy.flags.inDefs]; exact hd
    rcases hu with hu | hu
    · rw [use_start hnd (hP.trans hpath) hu (.inl rfl)] at hpush
      refine ⟨d.svg, e, d.pc.log, fun rest fin => ?_, he.svgPaths⟩
      unfold parse
      rw [hrun, SM.bind_run, hpush]
    · rw [use_start hnd (hP.trans hpath) hu (.inr rfl)] at hpush
      refine ⟨d.svg, e, d.pc.log, fun rest fin => ?_, he.svgPaths⟩
      unfold parse
      rw [hrun, SM.bind_run, hpush]
      rfl

/-- C42, partial: which error it is, for an element that declares no style and has proper lengths. -/
theorem C42_error_kind_partial {fuel : Nat} {m : ErrorMode} {pre : List Token} {attrs : List Attr} (hr : Reads F (fuel + 1) m pre)
    (ht : Tidy (pre ++ [.start "use".toList attrs])) {ch : List Elem} (ho : openFrom [] pre = some ch) (hd : inside "defs" ch = false)
    (hu : Unstyled attrs) (hp : Placed F attrs) (rest : List Token) (fin : StreamEnd) :
    (lastNamed "href" attrs = [] →
      ∃ s l, parse (F := F) (fuel + 1) m (pre ++ .start "use".toList attrs :: rest) fin = .done (some s) (some .useNoHref) l) ∧
    (lastNamed "href" attrs ≠ [] → (∀ id, lastNamed "href" attrs ≠ '#' :: id) →
      ∃ s l, parse (F := F) (fuel + 1) m (pre ++ .start "use".toList attrs :: rest) fin = .done (some s) (some .useNotID) l) ∧
    (∀ id, lastNamed "href" attrs = '#' :: id → definitionOf id pre = none →
      ∃ s l, parse (F := F) (fuel + 1) m (pre ++ .start "use".toList attrs :: rest) fin = .done (some s) (some .useNotFound) l) := by
  obtain ⟨c0, hok⟩ := reads_ok hr
  obtain ⟨htab, hrest, hpath⟩ := tidy_reads ht hok ho
  have main : (refOf attrs = none ∨ ∃ id, refOf attrs = some id ∧ definitionOf id pre = none) →
      ∃ s l, parse (F := F) (fuel + 1) m (pre ++ .start "use".toList attrs :: rest) fin = .done (some s) (some (useError attrs)) l := by
    intro hb
    obtain ⟨top, below, hst⟩ : ∃ top below, c0.styleStack = top :: below := by
      cases h : c0.styleStack with
      | nil => exact absurd h hrest.tidy.ne
      | cons t r => exact ⟨t, r, rfl⟩
    have hrun : readTokens (fuel + 1) (pre ++ .start "use".toList attrs :: rest) (initCursor (F := F) m) =
        (.err (useError attrs), atOffset (num 0) (num 0) { c0 with styleStack := top :: c0.styleStack }) := by
      rw [readTokens_append, SM.bind_run, hok]
      dsimp only
      rw [readTokens_cons, SM.bind_run, readToken, SM.bind_run, pushStyle_unstyled hu hst]
      dsimp only
      have hs := use_start (d := { c0 with styleStack := top :: c0.styleStack }) (hrest.tidy.flags.inDefs.trans hd) hpath
        (useF_error (fuel := fuel) hp (hb.imp (fun h => h) fun ⟨id, h1, h2⟩ => ⟨id, h1, (htab.done id).trans h2⟩)) (.inr rfl)
      rw [hs]
    unfold parse
    rw [hrun]
    exact ⟨_, _, rfl⟩
  refine ⟨fun h => ?_, fun h1 h2 => ?_, fun id h1 h2 => ?_⟩
  · have := main (.inl (by unfold refOf; rw [h]))
    unfold useError at this
    rwa [if_pos h] at this
  · have hn : refOf attrs = none := by
      unfold refOf
      split
      · rename_i id h; exact absurd h (h2 id)
      · rfl
    have := main (.inl hn)
    unfold useError at this
    rwa [if_neg h1, if_pos hn] at this
  · have hn : refOf attrs = some id := by unfold refOf; rw [h1]; rfl
    have := main (.inr ⟨id, hn, h2⟩)
    unfold useError at this
    rwa [if_neg (by rw [h1]; simp), if_neg (by rw [hn]; simp)] at this

end GoSvg

namespace GoSvg

open Spec

section Examples

attribute [local instance] asciiEnv
attribute [local instance] dummyLibm

/-- Definitions of a line, a group that uses it twice, and a group that uses that one. -/
def useDoc : List Token :=
  elem "svg" [] (elem "defs" [] (elem "line" [("id", "a"), ("x2", "4")] ++
      elem "g" [("id", "b")] (elem "use" [("href", "#a")] ++ elem "use" [("href", "#a"), ("x", "3")]) ++
      elem "g" [("id", "c")] (elem "use" [("href", "#b")])) ++
    elem "use" [("href", "#c")] ++ elem "use" [("href", "#b")])

theorem useDoc_tidy : Tidy useDoc := ⟨by decide +kernel, by decide +kernel, .inr (by decide +kernel)⟩

theorem useDoc_acyclic : Acyclic useDoc := by
  refine ⟨fun id => if id = "c".toList then 2 else if id = "b".toList then 1 else 0, ?_⟩
  have h : ∀ x ∈ (definitionsIn useDoc).done, ∀ d ∈ x.2, d.tag = "use".toList → ∀ id' ∈ refOf d.attrs,
      (if id' = "c".toList then 2 else if id' = "b".toList then 1 else 0) < (if x.1 = "c".toList then 2 else if x.1 = "b".toList then 1 else 0) := by
    decide +kernel
  exact fun id ds hx d hd ht id' hi => h (id, ds) hx d hd ht id' hi

/-- C42 applies to it, in exact arithmetic. -/
theorem useDoc_ends (m : ErrorMode) : ∃ (n : Nat) (o : Outcome ℝ), o ≠ .diverge ∧ ∀ fuel, n ≤ fuel → parse fuel m useDoc .eof = o :=
  C42_terminates_real_partial useDoc_tidy useDoc_acyclic m .eof

/-- The definitions of the document, and what it draws. -/
theorem useDoc_definitions : (definitionsIn useDoc).done.map (fun x => (x.1, x.2.map (·.tag))) =
      [("c".toList, ["g".toList, "use".toList, "endg".toList]), ("b".toList, ["g".toList, "use".toList, "use".toList, "endg".toList]),
        ("a".toList, ["line".toList])] ∧
    (pathsOf .strict useDoc).map (·.map List.length) = some [4, 4] := by decide +kernel

theorem placed_none {attrs : List Attr} (hx : valuesNamed "x" attrs = []) (hy : valuesNamed "y" attrs = []) {F : Type} [GoFloat F] : Placed F attrs :=
  fun _ => ⟨(by rw [hx]; exact List.forall_mem_nil _), (by rw [hy]; exact List.forall_mem_nil _)⟩

/-- A document the parser reads to its end, or to the place where the stream breaks off. -/
theorem reads_of {fuel : Nat} {m : ErrorMode} {ts : List Token}
    (h : (match (readTokens fuel ts (initCursor (F := F64) m)).1 with | .ok _ => true | _ => false) = true) : Reads F64 fuel m ts := by
  split at h
  · rename_i a ha
    exact ok_reads (c := (readTokens fuel ts (initCursor (F := F64) m)).2) (Prod.ext ha rfl)
  · cases h

/-- Two definitions that use each other, one of them with something else besides. -/
def circlePre : List Token :=
  [.start "svg".toList []] ++ elem "defs" [] (elem "use" [("id", "a"), ("href", "#b")] ++ elem "line" [] ++
    elem "use" [("id", "b"), ("href", "#a")])

/-- The parser does not end. -/
theorem circle_forever (rest : List Token) (fin : StreamEnd) (fuel : Nat) :
    parse (F := F64) fuel .strict (circlePre ++ .start "use".toList (attrsOf [("href", "#a")]) :: rest) fin = .diverge := by
  have hd : ∀ id ∈ ["a".toList, "b".toList], ∃ d ∈ (definitionOf id circlePre).bind List.head?,
      d.tag = "use".toList ∧ (∀ x ∈ declared d.attrs, ∀ p ∈ styleProperties, x.1 ≠ p.toList) ∧ valuesNamed "x" d.attrs = [] ∧
      valuesNamed "y" d.attrs = [] ∧ ∃ id' ∈ ["a".toList, "b".toList], refOf d.attrs = some id' := by decide +kernel
  refine C42_circle_false (fuel0 := 1) (ids := ["a".toList, "b".toList]) (id := "a".toList) (ch := [⟨"svg".toList, []⟩])
    (reads_of (by decide +kernel)) ⟨by decide +kernel, by decide +kernel, .inr (by decide +kernel)⟩ (by decide +kernel)
    (by decide +kernel) ?_ (by unfold Unstyled; decide +kernel) (placed_none (by decide +kernel) (by decide +kernel)) (by decide +kernel)
    (by decide +kernel) rest fin fuel
  intro id hid
  obtain ⟨d, hm, h1, h2, h3, h4, h5⟩ := hd id hid
  cases hdef : definitionOf id circlePre with
  | none => rw [hdef] at hm; cases hm
  | some l =>
    cases l with
    | nil => rw [hdef] at hm; cases hm
    | cons d' ds =>
      rw [hdef] at hm
      cases hm
      exact ⟨d, ds, rfl, h1, h2, placed_none h3 h4, h5⟩

/-- References that fail: none, empty, not `#id`, not defined, and one that is overridden by an empty one. -/
def badRefs : List (List Attr) :=
  [attrsOf [], attrsOf [("href", "")], attrsOf [("href", "a.svg#x")], attrsOf [("href", "#x")], attrsOf [("href", "#a"), ("href", "")]]

def badPre : List Token := [.start "svg".toList []] ++ elem "defs" [] (elem "line" [("id", "a")]) ++ elem "line" [("x1", "2")]

/-- C42 applies to them. -/
theorem bad_refs : ∀ attrs ∈ badRefs, Reads F64 1 .ignore badPre ∧ Tidy (badPre ++ [.start "use".toList attrs]) ∧
    openFrom [] badPre = some [⟨"svg".toList, []⟩] ∧ Unstyled attrs ∧ Placed F64 attrs ∧
    (refOf attrs = none ∨ ∃ id, refOf attrs = some id ∧ definitionOf id badPre = none) := by
  have h : ∀ attrs ∈ badRefs, (WellNested (badPre ++ [.start "use".toList attrs]) ∧ Every TidyTag [] (badPre ++ [.start "use".toList attrs]) ∧
      Every DefsTag [] (badPre ++ [.start "use".toList attrs])) ∧
    openFrom [] badPre = some [⟨"svg".toList, []⟩] ∧ (∀ x ∈ declared attrs, ∀ p ∈ styleProperties, x.1 ≠ p.toList) ∧
    (valuesNamed "x" attrs = [] ∧ valuesNamed "y" attrs = []) ∧
    (refOf attrs = none ∨ ∃ id ∈ refOf attrs, definitionOf id badPre = none) := by decide +kernel
  intro attrs ha
  obtain ⟨⟨h1, h2, h3⟩, h4, h5, ⟨h6, h7⟩, h8⟩ := h attrs ha
  exact ⟨reads_of (by decide +kernel), ⟨h1, h2, .inr h3⟩, h4, h5, placed_none h6 h7, h8⟩

theorem badPre_draws : (Outcome.paths (parse (F := F64) 1 .ignore badPre (.error 0))).map (·.path.length) = [2] := by decide +kernel

end Examples

end GoSvg
