import Verif.Props.UseOffset
import Verif.Lemmas.Fuel
import Verif.Lemmas.UseEnds

/-! C86: a `use` element is its definition in a group. -/

namespace GoSvg.Spec

/-- A document with a `use` element. -/
def usedDoc (pre : List Token) (attrs : List Attr) (inner post : List Token) : List Token :=
  pre ++ .start "use".toList attrs :: (inner ++ .stop "use".toList :: post)

/-- The same document with a group with the attributes of the `use` in its place, and the element `d` in the group. -/
def inlinedDoc (pre : List Token) (attrs : List Attr) (d : Definition) (inner post : List Token) : List Token :=
  pre ++ .start "g".toList attrs :: .start d.tag d.attrs :: .stop d.tag :: (inner ++ .stop "g".toList :: post)

end GoSvg.Spec

namespace GoSvg

open Spec

variable {F : Type} [GoFloat F] [GoEnv]

open SM (get modify throw lift panic diverge forEach)

/-- The same result, and the same state unless it is a panic or does not end. -/
def EqualRun (x y : Res Unit × Cursor F) : Prop := x.1 = y.1 ∧ (x.1.Tame → x.2 = y.2)

omit [GoFloat F] [GoEnv] in
theorem equalRun_refl (x : Res Unit × Cursor F) : EqualRun x x := ⟨rfl, fun _ => rfl⟩

omit [GoFloat F] [GoEnv] in
theorem equalRun_bind {x y : CM F Unit} {c d : Cursor F} {f g : Unit → CM F Unit} (h : EqualRun (x c) (y d))
    (hf : ∀ e, x c = (.ok (), e) → EqualRun (f () e) (g () e)) : EqualRun ((x >>= f) c) ((y >>= g) d) := by
  rw [SM.bind_run, SM.bind_run]
  obtain ⟨h1, h2⟩ := h
  rcases hx : x c with ⟨r, c'⟩
  rcases hy : y d with ⟨r', d'⟩
  rw [hx, hy] at h1 h2
  rw [hx] at hf
  dsimp only at h1 h2
  subst h1
  cases r with
  | ok u =>
    obtain rfl := h2 trivial
    exact hf c' rfl
  | err e => obtain rfl := h2 trivial; exact equalRun_refl _
  | panic s => exact ⟨rfl, fun h => absurd h id⟩
  | diverge => exact ⟨rfl, fun h => absurd h id⟩

/-- Storing the path and taking off the style of the element, in either order. -/
theorem emit_pop {c : Cursor F} {st : PathStyle F} {rest : List (PathStyle F)} (hs : c.styleStack = st :: rest) (h : rest.head? = some st) :
    (emitPath c).1 = .ok () ∧ emitPath { c with styleStack := rest } = ((emitPath c).1, { (emitPath c).2 with styleStack := rest }) ∧
    (emitPath c).2.styleStack = c.styleStack ∧ (emitPath c).2.inDefs = c.inDefs := by
  rcases rest with _ | ⟨st', rest⟩
  · cases h
  cases h
  unfold emitPath
  dsimp only
  cases hp : c.pc.path with
  | nil => exact ⟨rfl, rfl, rfl, rfl⟩
  | cons o os =>
    rw [hs]
    cases hm : c.inMask with
    | false => exact ⟨rfl, rfl, rfl, rfl⟩
    | true =>
      cases hk : c.mask with
      | none => exact ⟨rfl, rfl, rfl, rfl⟩
      | some m => exact ⟨rfl, rfl, rfl, rfl⟩

/-- The drawing function of a shape. -/
theorem shape_func {n : Nat} {use : List Attr → CM F Unit} {tag : Str} (h : tag ∈ shapeTags) :
    ∃ df, drawFuncs n use tag = some df ∧ ∀ use', drawFuncs n use' tag = some df := by
  simp only [shapeTags, List.mem_cons, List.not_mem_nil, or_false] at h
  rcases h with rfl | rfl | rfl | rfl | rfl | rfl | rfl <;> exact ⟨_, rfl, fun _ => rfl⟩

theorem shape_end {tag : Str} (h : tag ∈ shapeTags) {c : Cursor F} {st : PathStyle F} {rest : List (PathStyle F)} (hs : c.styleStack = st :: rest) :
    readEndElement tag c = (.ok (), { c with styleStack := rest }) := by
  unfold readEndElement
  rw [SM.bind_run]
  unfold popStyle
  rw [hs]
  simp only [shapeTags, List.mem_cons, List.not_mem_nil, or_false] at h
  rcases h with rfl | rfl | rfl | rfl | rfl | rfl | rfl <;> rfl

/-- A `use` without an offset: nothing but the reference matters. -/
theorem use_plain {n : Nat} {attrs : List Attr} {id : Str} {ds : List Definition} (hid : refOf attrs = some id) (hx : valuesNamed "x" attrs = [])
    (hy : valuesNamed "y" attrs = []) {c : Cursor F} (hf : c.svg.defs.find id = some ds) (ho : NoOffset c) :
    useF (n + 1) attrs c = (match useLoop (drawFuncs n (useF n)) ds c with
      | (r, c) => (r, { c with pc := { c.pc with curX := num 0, curY := num 0 } })) := by
  have hnx : ∀ a ∈ attrs, a.name ≠ "x".toList := by
    intro a ha e
    have : a.value ∈ valuesNamed "x" attrs := by
      simp only [valuesNamed, List.mem_map, List.mem_filter]
      exact ⟨a, ⟨ha, by simp [e]⟩, rfl⟩
    rw [hx] at this; cases this
  have hny : ∀ a ∈ attrs, a.name ≠ "y".toList := by
    intro a ha e
    have : a.value ∈ valuesNamed "y" attrs := by
      simp only [valuesNamed, List.mem_map, List.mem_filter]
      exact ⟨a, ⟨ha, by simp [e]⟩, rfl⟩
    rw [hy] at this; cases this
  have hv : ∀ as : List Attr, (∀ a ∈ as, a ∈ attrs) → ∀ v : UseVars F, ∃ h, Res.loop (useAttr c.svg.viewBox) v as = .ok ⟨h, v.x, v.y⟩ := by
    intro as
    induction as with
    | nil => intro _ v; exact ⟨v.href, rfl⟩
    | cons a as ih =>
      intro h v
      have ha := h a List.mem_cons_self
      have e : ∃ h, useAttr c.svg.viewBox v a = .ok ⟨h, v.x, v.y⟩ := by
        unfold useAttr
        by_cases k : a.name = "href".toList
        · rw [if_pos k]; exact ⟨_, rfl⟩
        · rw [if_neg k, if_neg (hnx a ha), if_neg (hny a ha)]; exact ⟨_, rfl⟩
      obtain ⟨h1, e⟩ := e
      obtain ⟨h2, e2⟩ := ih (fun b hb => h b (List.mem_cons_of_mem _ hb)) ⟨h1, v.x, v.y⟩
      refine ⟨h2, ?_⟩
      rw [Res.loop, e]; exact e2
  obtain ⟨h, hv⟩ := hv attrs (fun _ h => h) ⟨[], num 0, num 0⟩
  rcases useF_cases n attrs c with ⟨e, he, -⟩ | ⟨v, hv', hu⟩
  · rw [hv] at he; cases he
  · rw [hv] at hv'
    cases hv'
    rw [hu]
    unfold withOffset
    have e : ({ c with pc := { c.pc with curX := num 0, curY := num 0 } } : Cursor F) = c := by
      obtain ⟨h1, h2⟩ := ho
      rcases c with ⟨pc, _, _, _, _, _, _, _, _, _, _⟩
      rcases pc with ⟨_, _, _, cx, cy, _, _, _, _, _, _, _, _, _⟩
      dsimp only at h1 h2
      subst h1; subst h2; rfl
    dsimp only
    rw [e]
    rcases useBody_cases (drawFuncs n (useF n)) attrs c with ⟨-, h', -⟩ | ⟨-, h', -⟩ | ⟨id', h', hf', -⟩ | ⟨id', ds', h', hf', hb⟩
    · rw [h'] at hid; cases hid
    · rw [h'] at hid; cases hid
    · rw [h'] at hid; cases hid; rw [hf] at hf'; cases hf'
    · rw [h'] at hid; cases hid; rw [hf] at hf'; cases hf'; rw [hb]

/-- The group of the inlined element: nothing happens. -/
theorem inline_group {n : Nat} {attrs : List Attr} {c : Cursor F} (hp : c.pc.path = []) (hd : c.inDefs = false) :
    readStartElement n "g".toList attrs c = (.ok (), c) := by
  unfold readStartElement
  dsimp only
  rw [if_neg (by rw [hd]; rintro ⟨h, -⟩; cases h)]
  have : drawFuncs (F := F) n (useF n) "g".toList = some gF := rfl
  rw [this]
  dsimp only
  have : gF attrs c = (.ok (), c) := rfl
  rw [this]
  dsimp only
  have : emitPath c = (.ok (), c) := by unfold emitPath; rw [hp]
  rw [this]

/-- The two ways to the same state. -/
theorem inline_step {n : Nat} {attrs : List Attr} {id : Str} {d : Definition} (hid : refOf attrs = some id) (hx : valuesNamed "x" attrs = [])
    (hy : valuesNamed "y" attrs = []) (hd : d.tag ∈ shapeTags) (hu : Unstyled d.attrs) {c : Cursor F} (hf : c.svg.defs.find id = some [d])
    (ho : NoOffset c) (hdefs : c.inDefs = false) (hpath : c.pc.path = []) :
    EqualRun (readToken (n + 1) (.start "use".toList attrs) c)
      (readTokens n [.start "g".toList attrs, .start d.tag d.attrs, .stop d.tag] c) ∧
    ∀ e, readToken (n + 1) (.start "use".toList attrs) c = (.ok (), e) → e.inDefs = false := by
  have eL : readToken (n + 1) (.start "use".toList attrs) c = (pushStyle attrs >>= fun _ => readStartElement (n + 1) "use".toList attrs) c := rfl
  have eR : readTokens n [.start "g".toList attrs, .start d.tag d.attrs, .stop d.tag] c =
      (pushStyle attrs >>= fun _ => (readStartElement n "g".toList attrs >>= fun _ => readTokens n [.start d.tag d.attrs, .stop d.tag])) c := by
    show ((pushStyle attrs >>= fun _ => readStartElement n "g".toList attrs) >>= fun _ => readTokens n [.start d.tag d.attrs, .stop d.tag]) c = _
    simp only [SM.bind_run]
    rcases pushStyle attrs c with ⟨r, c1⟩
    cases r <;> rfl
  have hoff := pushStyle_offset attrs c ho
  have hdf := (pushStyle_elem attrs c).defs
  rw [eL, eR]
  rcases pushStyle_frame attrs c with ⟨top, rest, st, c1, -, -, hs, hp⟩ | ⟨hn, -⟩
  swap
  · refine ⟨equalRun_bind (equalRun_refl _) fun e he => absurd (by rw [he]) (hn ()), fun e he => ?_⟩
    obtain ⟨_, c1, h1, -⟩ := bind_ok he
    exact absurd (by rw [h1]) (hn ())
  have hsame := styleR_same hs
  rw [hp] at hoff hdf
  rw [SM.bind_run, SM.bind_run, hp]
  dsimp only
  generalize hc2 : ({ c1 with styleStack := st :: c.styleStack } : Cursor F) = c2 at hoff hdf
  have hst2 : c2.styleStack = st :: c.styleStack := by rw [← hc2]
  have hdefs2 : c2.inDefs = false := by rw [← hc2]; exact hsame.7.trans hdefs
  have hpath2 : c2.pc.path = [] := by rw [← hc2]; exact hsame.3.trans hpath
  have hf2 : c2.svg.defs.find id = some [d] := by rw [hdf]; exact hf
  clear hc2 hs hsame hp
  obtain ⟨df, hdf1, hdf2⟩ := shape_func (F := F) (n := n) (use := useF n) hd
  have hpush := pushStyle_unstyled hu hst2
  generalize hc3 : ({ c2 with styleStack := st :: c2.styleStack } : Cursor F) = c3 at hpush
  have hst3 : c3.styleStack = st :: st :: c.styleStack := by rw [← hc3]; exact congrArg _ hst2
  have hdefs3 : c3.inDefs = false := by rw [← hc3]; exact hdefs2
  have hoff3 : NoOffset c3 := by rw [← hc3]; exact hoff
  have hk : DrawR c3 (df d.attrs c3).2 := by
    rcases drawFuncs_cases hdf1 with ⟨-, h⟩ | h
    · exact h d.attrs c3
    · exfalso
      simp only [shapeTags, List.mem_cons, List.not_mem_nil, or_false] at hd
      rcases h with h | h | h | h | h | h | h | h | h | h <;> have h := h.1 <;> rw [h] at hd <;> revert hd <;> decide
  rcases hr : df d.attrs c3 with ⟨r, c4⟩
  rw [hr] at hk
  dsimp only at hk
  have hst4 : c4.styleStack = st :: st :: c.styleStack := by rw [hk.eq]; exact hst3
  have hdefs4 : c4.inDefs = false := by rw [hk.eq]; exact hdefs3
  have hoff4 : NoOffset c4 := ⟨hk.curX.trans hoff3.1, hk.curY.trans hoff3.2⟩
  have zero : ∀ e : Cursor F, NoOffset e → ({ e with pc := { e.pc with curX := num 0, curY := num 0 } } : Cursor F) = e := by
    rintro ⟨⟨_, _, _, cx, cy, _, _, _, _, _, _, _, _, _⟩, _, _, _, _, _, _, _, _, _, _⟩ ⟨h1, h2⟩
    dsimp only at h1 h2
    subst h1; subst h2; rfl
  have htag : d.tag ≠ "endg".toList ∧ d.tag ≠ "g".toList := by
    simp only [shapeTags, List.mem_cons, List.not_mem_nil, or_false] at hd
    rcases hd with h | h | h | h | h | h | h <;> rw [h] <;> decide
  have hloop : useLoop (drawFuncs n (useF n)) [d] c2 = match (r, c4) with
      | (.ok _, c4) => (.ok (), { c4 with styleStack := st :: c.styleStack })
      | x => x := by
    rw [useLoop, if_neg htag.1, SM.bind_run, hpush]
    dsimp only
    rw [hdf1]
    dsimp only
    rw [SM.bind_run, hr, if_pos htag.2]
    cases r with
    | ok u =>
      dsimp only
      rw [SM.bind_run]
      unfold popStyle
      rw [hst4]; rfl
    | _ => rfl
  have huse := use_plain (n := n) hid hx hy hf2 hoff
  rw [hloop] at huse
  have huse' : useF (n + 1) attrs c2 = match (r, c4) with
      | (.ok _, c4) => (.ok (), { c4 with styleStack := st :: c.styleStack })
      | x => x := by
    rw [huse]
    cases r with
    | ok u => exact congrArg (Prod.mk _) (zero _ ⟨hoff4.1, hoff4.2⟩)
    | _ => exact congrArg (Prod.mk _) (zero _ hoff4)
  have hL : readStartElement (n + 1) "use".toList attrs c2 = match (r, c4) with
      | (.ok _, c4) => emitPath { c4 with styleStack := st :: c.styleStack }
      | (.err e, c4) => match emitPath c4 with
        | (.ok (), c) => (.err e, c)
        | (r', c) => (r', c)
      | x => x := by
    unfold readStartElement
    dsimp only
    rw [if_neg (by rw [hdefs2]; rintro ⟨h, -⟩; cases h), drawFuncs_use]
    dsimp only
    rw [huse']
    cases r with
    | ok u =>
      dsimp only
      rcases emitPath _ with ⟨r, c⟩
      cases r <;> rfl
    | _ => rfl
  have hR : readTokens n [.start d.tag d.attrs, .stop d.tag] c2 = match (r, c4) with
      | (.ok _, c4) => (readEndElement d.tag >>= fun _ => pure ()) (emitPath c4).2
      | (.err e, c4) => (.err e, (emitPath c4).2)
      | x => x := by
    show ((pushStyle d.attrs >>= fun _ => readStartElement n d.tag d.attrs) >>= fun _ => readTokens n [.stop d.tag]) c2 = _
    rw [SM.bind_run, SM.bind_run, hpush]
    dsimp only
    have : readStartElement n d.tag d.attrs c3 = match (r, c4) with
      | (.ok _, c4) => (.ok (), (emitPath c4).2)
      | (.err e, c4) => (.err e, (emitPath c4).2)
      | x => x := by
      obtain ⟨e1, -⟩ := emit_pop hst4 rfl
      unfold readStartElement
      dsimp only
      rw [if_neg (by rw [hdefs3]; rintro ⟨h, -⟩; cases h), hdf1]
      dsimp only
      rw [hr]
      rcases he : emitPath c4 with ⟨r5, c5⟩
      rw [he] at e1
      dsimp only at e1
      subst e1
      cases r with
      | ok u => dsimp only; rw [he]
      | err e => dsimp only; rw [he]
      | _ => rfl
    rw [this]
    cases r <;> rfl
  obtain ⟨e1, e2, e3, e4⟩ := emit_pop hst4 rfl
  rw [SM.bind_run, inline_group hpath2 hdefs2]
  dsimp only
  rw [hL, hR]
  cases r with
  | ok u =>
    dsimp only
    rw [e2, e1, SM.bind_run, shape_end hd (e3.trans hst4)]
    refine ⟨equalRun_refl _, fun e he => ?_⟩
    cases he
    exact e4.trans hdefs4
  | err e =>
    dsimp only
    rcases he : emitPath c4 with ⟨r5, c5⟩
    rw [he] at e1
    dsimp only at e1
    subst e1
    exact ⟨equalRun_refl _, fun e he => nomatch he⟩
  | panic s => exact ⟨equalRun_refl _, fun e he => nomatch he⟩
  | diverge => exact ⟨equalRun_refl _, fun e he => nomatch he⟩

theorem noTags_inDefs (a : Nat) : ∀ (ts : List Token), NoTags ts → ∀ c : Cursor F, (readTokens a ts c).2.inDefs = c.inDefs
  | [], _, _ => rfl
  | t :: ts, h, c => by
    have ht := h t List.mem_cons_self
    have ih := noTags_inDefs a ts fun u hu => h u (List.mem_cons_of_mem _ hu)
    have e : (readToken a t c).2.inDefs = c.inDefs := by
      cases t with
      | start n as => exact absurd rfl (ht.1 n as)
      | stop n => exact absurd rfl (ht.2 n)
      | other => rfl
      | chars s =>
        show (readChars s c).2.inDefs = _
        unfold readChars
        split
        · rfl
        · dsimp only
          split <;> rfl
    show ((readToken a t >>= fun _ => readTokens a ts) c).2.inDefs = _
    rw [SM.bind_run]
    rcases hr : readToken a t c with ⟨r, c1⟩
    rw [hr] at e
    cases r with
    | ok u => exact (ih c1).trans e
    | _ => exact e

/-- What follows the `use`, and what follows the group. -/
theorem rest_alike (a : Nat) {inner post : List Token} (hi : NoTags inner) {c : Cursor F} (hc : c.inDefs = false) :
    EqualRun (readTokens a (inner ++ .stop "use".toList :: post) c) (readTokens a (inner ++ .stop "g".toList :: post) c) := by
  rw [readTokens_append, readTokens_append]
  refine equalRun_bind (equalRun_refl _) fun e he => ?_
  have hd := noTags_inDefs a inner hi c
  rw [he] at hd
  have : readToken (F := F) a (.stop "use".toList) e = readToken a (.stop "g".toList) e := by
    show readEndElement _ e = readEndElement _ e
    unfold readEndElement
    rw [SM.bind_run, SM.bind_run]
    rcases hp : popStyle e with ⟨r, e1⟩
    cases r with
    | ok u =>
      have hd1 : e1.inDefs = false := by
        rw [popStyle_ok hp]; exact hd.trans hc
      have e1' : ∀ x : Cursor F, x = e1 → (Res.ok (), e1) = ((Res.ok (), x) : Res Unit × Cursor F) := fun x h => by rw [h]
      refine e1' _ ?_
      show (if e1.inDefs = true then _ else e1) = e1
      rw [if_neg (by rw [hd1]; decide)]
    | _ => rfl
  refine equalRun_bind (by rw [this]; exact equalRun_refl _) fun _ _ => equalRun_refl _

/-- The runs of the two documents, with the same fuel inside. -/
theorem inline_run {a n : Nat} {m : ErrorMode} {pre inner post : List Token} {attrs : List Attr} {ch : List Elem} {id : Str} {d : Definition}
    (ht : Tidy (pre ++ [.start "use".toList attrs])) (ho : openFrom [] pre = some ch) (hdefs : inside "defs" ch = false)
    (hid : refOf attrs = some id) (hdef : definitionOf id pre = some [d]) (hx : valuesNamed "x" attrs = []) (hy : valuesNamed "y" attrs = [])
    (hd : d.tag ∈ shapeTags) (hu : Unstyled d.attrs) (hi : NoTags inner) :
    EqualRun ((readTokens a pre >>= fun _ => (readToken (n + 1) (.start "use".toList attrs) >>= fun _ =>
        readTokens a (inner ++ .stop "use".toList :: post))) (initCursor (F := F) m))
      ((readTokens a pre >>= fun _ => (readTokens n [.start "g".toList attrs, .start d.tag d.attrs, .stop d.tag] >>= fun _ =>
        readTokens a (inner ++ .stop "g".toList :: post))) (initCursor (F := F) m)) := by
  refine equalRun_bind (equalRun_refl _) fun c hc => ?_
  obtain ⟨htab, hrest, hpath⟩ := tidy_reads ht hc ho
  have hoff := readTokens_offset a pre (initCursor (F := F) m) ⟨rfl, rfl⟩
  rw [hc] at hoff
  have hin : c.inDefs = false := hrest.tidy.flags.inDefs.trans hdefs
  obtain ⟨k1, k2⟩ := inline_step (n := n) hid hx hy hd hu ((htab.done id).trans hdef) hoff hin hpath
  exact equalRun_bind k1 fun e he => rest_alike a hi (k2 e he)

/-- The outcome of a run. -/
def outcomeOf (b : Bool) (fin : StreamEnd) (x : Res Unit × Cursor F) : Outcome F :=
  match x with
  | (.ok (), c) =>
    match fin with
    | .error e => .done (some c.svg) (some (.reader e)) c.pc.log
    | .eof => if b then .done (some c.svg) none c.pc.log else .done none (some .noElement) c.pc.log
  | (.err e, c) => .done (some c.svg) (some e) c.pc.log
  | (.panic s, _) => .panic s
  | (.diverge, _) => .diverge

theorem parse_outcome (fuel : Nat) (m : ErrorMode) (ts : List Token) (fin : StreamEnd) :
    parse (F := F) fuel m ts fin = outcomeOf (ts.any Token.isStart) fin (readTokens fuel ts (initCursor m)) := by
  unfold parse outcomeOf
  rcases readTokens fuel ts (initCursor (F := F) m) with ⟨r, c⟩
  cases r <;> cases fin <;> rfl

omit [GoFloat F] [GoEnv] in
theorem outcome_alike {b : Bool} {fin : StreamEnd} {x y : Res Unit × Cursor F} (h : EqualRun x y) : outcomeOf b fin x = outcomeOf b fin y := by
  rcases x with ⟨r, c⟩
  rcases y with ⟨r', c'⟩
  obtain ⟨h1, h2⟩ := h
  dsimp only at h1 h2
  subst h1
  cases r with
  | ok u => obtain rfl := h2 trivial; rfl
  | err e => obtain rfl := h2 trivial; rfl
  | _ => rfl

omit [GoFloat F] [GoEnv] in
theorem outcome_ends {b : Bool} {fin : StreamEnd} {x : Res Unit × Cursor F} (h : outcomeOf b fin x ≠ .diverge) : x.1 ≠ .diverge := by
  rintro e
  rcases x with ⟨r, c⟩
  dsimp only at e
  subst e
  exact h rfl

theorem used_run (a : Nat) (pre inner post : List Token) (attrs : List Attr) (c : Cursor F) :
    readTokens a (usedDoc pre attrs inner post) c = (readTokens a pre >>= fun _ => (readToken a (.start "use".toList attrs) >>= fun _ =>
      readTokens a (inner ++ .stop "use".toList :: post))) c := by
  unfold usedDoc
  rw [readTokens_append]; rfl

theorem inlined_run (a : Nat) (pre inner post : List Token) (attrs : List Attr) (d : Definition) (c : Cursor F) :
    readTokens a (inlinedDoc pre attrs d inner post) c = (readTokens a pre >>= fun _ =>
      (readTokens a [.start "g".toList attrs, .start d.tag d.attrs, .stop d.tag] >>= fun _ => readTokens a (inner ++ .stop "g".toList :: post))) c := by
  unfold inlinedDoc
  rw [readTokens_append, SM.bind_run, SM.bind_run]
  rcases readTokens a pre c with ⟨r, c1⟩
  cases r with
  | ok u =>
    exact readTokens_append a [.start "g".toList attrs, .start d.tag d.attrs, .stop d.tag] (inner ++ .stop "g".toList :: post) c1
  | _ => rfl

/-- C86, partial, any arithmetic, every error mode, every end of the stream: let the definition of `id` be one shape that declares no style. A
`use` of it without an offset is a group with the attributes of the `use` and the shape in it: with either document, `Parse` gives the same
drawing, error and messages, or the same panic. The documents are tidy up to the `use`, and anything after it. Missing: definitions with a style
of their own, for which it is false (`C86_style_false`), and definitions with several shapes, for which it is also false (`C86_parts_false`);
the offset is C44. -/
theorem C86_inline_partial {fuel : Nat} {m : ErrorMode} {pre inner post : List Token} {fin : StreamEnd} {attrs : List Attr} {ch : List Elem}
    {id : Str} {d : Definition} (ht : Tidy (pre ++ [.start "use".toList attrs])) (ho : openFrom [] pre = some ch) (hdefs : inside "defs" ch = false)
    (hid : refOf attrs = some id) (hdef : definitionOf id pre = some [d]) (hx : valuesNamed "x" attrs = []) (hy : valuesNamed "y" attrs = [])
    (hd : d.tag ∈ shapeTags) (hu : Unstyled d.attrs) (hi : NoTags inner) :
    (parse (F := F) fuel m (usedDoc pre attrs inner post) fin ≠ .diverge →
      parse (F := F) fuel m (inlinedDoc pre attrs d inner post) fin = parse fuel m (usedDoc pre attrs inner post) fin) ∧
    (parse (F := F) fuel m (inlinedDoc pre attrs d inner post) fin ≠ .diverge →
      parse (F := F) (fuel + 1) m (usedDoc pre attrs inner post) fin = parse fuel m (inlinedDoc pre attrs d inner post) fin) := by
  have b1 : (usedDoc pre attrs inner post).any Token.isStart = true := by
    unfold usedDoc; rw [List.any_append, List.any_cons]; simp [Token.isStart]
  have b2 : (inlinedDoc pre attrs d inner post).any Token.isStart = true := by
    unfold inlinedDoc; rw [List.any_append, List.any_cons]; simp [Token.isStart]
  simp only [parse_outcome, b1, b2, used_run, inlined_run]
  constructor
  · intro h
    have h0 := outcome_ends h
    cases fuel with
    | zero =>
      refine outcome_alike (equalRun_bind (equalRun_refl _) fun c hc => ?_)
      rw [SM.bind_run, hc] at h0
      have hin : c.inDefs = false := (tidy_reads ht hc ho).2.1.tidy.flags.inDefs.trans hdefs
      have eR : readTokens (F := F) 0 [.start "g".toList attrs, .start d.tag d.attrs, .stop d.tag] =
          ((pushStyle attrs >>= fun _ => readStartElement 0 "g".toList attrs) >>= fun _ => readTokens 0 [.start d.tag d.attrs, .stop d.tag]) := rfl
      have eL : readToken (F := F) 0 (.start "use".toList attrs) = (pushStyle attrs >>= fun _ => readStartElement 0 "use".toList attrs) := rfl
      rw [eL] at h0
      rw [eR, eL]
      simp only [SM.bind_run] at h0 ⊢
      rcases pushStyle_frame attrs c with ⟨top, rest, st, c1, -, -, hs, hp⟩ | ⟨hn, -⟩
      · exfalso
        rw [hp] at h0
        apply h0
        have hd1 : c1.inDefs = false := (styleR_same hs).7.trans hin
        have : readStartElement 0 "use".toList attrs { c1 with styleStack := st :: c.styleStack } =
            (.diverge, { c1 with styleStack := st :: c.styleStack }) := by
          unfold readStartElement
          dsimp only
          rw [if_neg (by rw [hd1]; rintro ⟨h, -⟩; cases h), drawFuncs_use]
          rfl
        dsimp only
        rw [this]
      · rcases hp : pushStyle attrs c with ⟨r, c1⟩
        rw [hp] at hn
        cases r with
        | ok u => exact absurd rfl (hn u)
        | _ => exact equalRun_refl _
    | succ n =>
      have k := inline_run (F := F) (a := n + 1) (n := n) (m := m) (post := post) ht ho hdefs hid hdef hx hy hd hu hi
      have e := (ext_bind (ext_refl (readTokens (F := F) (n + 1) pre)) fun _ => ext_bind
        (readTokens_ext (F := F) (Nat.le_succ n) [.start "g".toList attrs, .start d.tag d.attrs, .stop d.tag]) fun _ =>
          ext_refl (readTokens (F := F) (n + 1) (inner ++ .stop "g".toList :: post))) (initCursor m) (by rw [← k.1]; exact h0)
      rw [e]
      exact (outcome_alike k).symm
  · intro h
    have h0 := outcome_ends h
    have k := inline_run (F := F) (a := fuel + 1) (n := fuel) (m := m) (post := post) ht ho hdefs hid hdef hx hy hd hu hi
    have e := (ext_bind (readTokens_ext (F := F) (Nat.le_succ fuel) pre) fun _ => ext_bind
      (ext_refl (readTokens (F := F) fuel [.start "g".toList attrs, .start d.tag d.attrs, .stop d.tag])) fun _ =>
        readTokens_ext (F := F) (Nat.le_succ fuel) (inner ++ .stop "g".toList :: post)) (initCursor m) h0
    rw [← e]
    exact outcome_alike k

end GoSvg

namespace GoSvg

open Spec

section Examples

attribute [local instance] asciiEnv
attribute [local instance] dummyLibm

/-- The paints and the outlines of a document that is read to its end without an error. -/
def fillsOf (mode : ErrorMode) (tokens : List Token) : Option (List (Option (Pattern F64) × Path)) :=
  match parse (F := F64) 8 mode tokens .eof with
  | .done (some svg) none _ => some (svg.svgPaths.map fun p => (p.style.fillerColor, p.path))
  | _ => none

/-- A definition of a line, up to a green group. -/
def inlinePre : List Token := [.start "svg".toList []] ++ elem "defs" [] (elem "line" [("id", "a"), ("x1", "1"), ("y2", "2")]) ++
  [.start "g".toList (attrsOf [("fill", "#0f0")])]

def inlineUse : List Attr := attrsOf [("href", "#a"), ("fill", "#f00")]

def inlineLine : Definition := ⟨"a".toList, "line".toList, attrsOf [("id", "a"), ("x1", "1"), ("y2", "2")]⟩

def inlinePost : List Token := elem "line" [("x2", "3")] ++ [.stop "g".toList, .stop "svg".toList]

/-- `C86_inline_partial` applies: the two documents give the same. -/
theorem inline_holds : parse (F := F64) 8 .strict (usedDoc inlinePre inlineUse [.chars "x".toList] inlinePost) .eof =
    parse (F := F64) 8 .strict (inlinedDoc inlinePre inlineUse inlineLine [.chars "x".toList] inlinePost) .eof := by
  refine ((C86_inline_partial (F := F64) (fuel := 8) (m := .strict) (pre := inlinePre) (inner := [.chars "x".toList]) (post := inlinePost)
    (fin := .eof) (attrs := inlineUse) (ch := [⟨"g".toList, attrsOf [("fill", "#0f0")]⟩, ⟨"svg".toList, []⟩]) (id := "a".toList) (d := inlineLine)
    ⟨by decide +kernel, by decide +kernel, .inr (by decide +kernel)⟩ (by decide +kernel) (by decide +kernel) (by decide +kernel) (by decide +kernel)
    (by decide +kernel) (by decide +kernel) (by decide +kernel) (by unfold Unstyled; decide +kernel) ?_).1 ?_).symm
  · intro t ht
    rw [List.mem_singleton] at ht
    subst ht
    exact ⟨fun _ _ h => (nomatch h), fun _ h => (nomatch h)⟩
  · decide +kernel

/-- What is drawn: the line of the definition in red, the other one in green. -/
theorem inline_draws : fillsOf .strict (usedDoc inlinePre inlineUse [.chars "x".toList] inlinePost) =
    some [(some (.plain ⟨255, 0, 0, 255⟩), [.moveTo ⟨64, 0⟩, .lineTo ⟨0, 128⟩]),
      (some (.plain ⟨0, 255, 0, 255⟩), [.moveTo ⟨0, 0⟩, .lineTo ⟨192, 0⟩])] := by decide +kernel

/-- A definition of a red line. -/
def redPre : List Token := [.start "svg".toList []] ++ elem "defs" [] (elem "line" [("id", "a"), ("x2", "1"), ("fill", "#f00")])

def redLine : Definition := ⟨"a".toList, "line".toList, attrsOf [("id", "a"), ("x2", "1"), ("fill", "#f00")]⟩

def hrefA : List Attr := attrsOf [("href", "#a")]

/-- C86 fails for a definition with a style of its own: the red line is drawn in black, the colour around the `use`. In a group in its place it is
red. -/
theorem C86_style_false : definitionOf "a".toList redPre = some [redLine] ∧
    fillsOf .strict (usedDoc redPre hrefA [] [.stop "svg".toList]) = some [(some (.plain ⟨0, 0, 0, 255⟩), [.moveTo ⟨0, 0⟩, .lineTo ⟨64, 0⟩])] ∧
    fillsOf .strict (inlinedDoc redPre hrefA redLine [] [.stop "svg".toList]) =
      some [(some (.plain ⟨255, 0, 0, 255⟩), [.moveTo ⟨0, 0⟩, .lineTo ⟨64, 0⟩])] := by decide +kernel

/-- A definition of a group of two lines. -/
def partsPre : List Token := [.start "svg".toList []] ++ elem "defs" [] (elem "g" [("id", "a")] (elem "line" [("x2", "1")] ++ elem "line" [("y2", "1")]))

/-- C86 fails for a definition with several shapes: they are drawn as one shape with one outline, with the fill rule over
all of them at once. -/
theorem C86_parts_false : pathsOf .strict (partsPre ++ elem "use" [("href", "#a")] ++ [.stop "svg".toList]) =
      some [[.moveTo ⟨0, 0⟩, .lineTo ⟨64, 0⟩, .moveTo ⟨0, 0⟩, .lineTo ⟨0, 64⟩]] ∧
    pathsOf .strict (partsPre ++ elem "g" [("href", "#a")] (elem "g" [("id", "a")] (elem "line" [("x2", "1")] ++ elem "line" [("y2", "1")])) ++
      [.stop "svg".toList]) = some [[.moveTo ⟨0, 0⟩, .lineTo ⟨64, 0⟩], [.moveTo ⟨0, 0⟩, .lineTo ⟨0, 64⟩]] := by decide +kernel

end Examples

end GoSvg
