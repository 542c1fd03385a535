import Verif.Lemmas.MaskNames
import Verif.Lemmas.Docs
import Verif.Lemmas.DocsNest
import Verif.Props.Numbers
import Verif.Props.Render

/-! C24 and C25: inherited styles. -/

set_option linter.unusedSectionVars false

namespace GoSvg

open Spec

variable {F : Type} [GoFloat F] [GoEnv]

open SM (get modify throw lift panic diverge forEach)

/-! ### C25 -/

/-- The opacity read, multiplied onto those before. -/
def multiply (x : F) (v : Str) (y : F) : Prop := ∃ z, parseBasicFloat v = .ok z ∧ y = x *. z

theorem opacity_read {st st' : PathStyle F} {k v : Str} {c c' : Cursor F} (h : readStyleAttr st k v c = (.ok st', c')) :
    (if k = "opacity".toList ∨ k = "fill-opacity".toList then multiply st.fillOpacity v st'.fillOpacity
      else st'.fillOpacity = st.fillOpacity) ∧
    (if k = "opacity".toList ∨ k = "stroke-opacity".toList then multiply st.lineOpacity v st'.lineOpacity
      else st'.lineOpacity = st.lineOpacity) := by
  have ho := readStyleAttr_only h
  have key : ∀ k', k' = "opacity".toList ∨ k' = "stroke-opacity".toList ∨ k' = "fill-opacity".toList →
      styleEff c.svg st k' v = .set (do
        let op ← parseBasicFloat v
        let st := if k' ≠ "stroke-opacity".toList then { st with fillOpacity := st.fillOpacity *. op } else st
        let st := if k' ≠ "fill-opacity".toList then { st with lineOpacity := st.lineOpacity *. op } else st
        .ok st) := by
    rintro k' (rfl | rfl | rfl) <;> rfl
  by_cases hk : k = "opacity".toList ∨ k = "stroke-opacity".toList ∨ k = "fill-opacity".toList
  · rw [readStyleAttr_eff, key k hk] at h
    simp only [runEff, SM.lift_run, Prod.mk.injEq] at h
    obtain ⟨h, -⟩ := h
    cases hp : (parseBasicFloat v : Res F) with
    | ok z =>
      rw [hp] at h
      rcases hk with rfl | rfl | rfl
      · rw [if_pos (.inl rfl), if_pos (.inl rfl)]
        cases h
        exact ⟨⟨z, hp, rfl⟩, z, hp, rfl⟩
      · rw [if_neg (by decide), if_pos (.inr rfl)]
        cases h
        exact ⟨rfl, z, hp, rfl⟩
      · rw [if_pos (.inr rfl), if_neg (by decide)]
        cases h
        exact ⟨⟨z, hp, rfl⟩, rfl⟩
    | err e => rw [hp] at h; cases h
    | panic e => rw [hp] at h; cases h
    | diverge => rw [hp] at h; cases h
  · have h1 : k ≠ "opacity".toList := fun h => hk (.inl h)
    have h2 : k ≠ "stroke-opacity".toList := fun h => hk (.inr (.inl h))
    have h3 : k ≠ "fill-opacity".toList := fun h => hk (.inr (.inr h))
    rw [if_neg (by rintro (h | h); exact h1 h; exact h3 h), if_neg (by rintro (h | h); exact h1 h; exact h2 h)]
    exact ⟨ho.fillOpacity h1 h3, ho.lineOpacity h1 h2⟩

/-- Reading the values one after the other and multiplying. -/
def Multiplied (vs : List Str) (x y : F) : Prop :=
  ∃ zs, List.Forall₂ (fun v z => parseBasicFloat v = .ok z) vs zs ∧ y = zs.foldl (· *. ·) x

theorem multiplied_append {vs ws : List Str} {x y z : F} (h1 : Multiplied vs x y) (h2 : Multiplied ws y z) :
    Multiplied (vs ++ ws) x z := by
  obtain ⟨zs, a1, a2⟩ := h1
  obtain ⟨us, b1, b2⟩ := h2
  exact ⟨zs ++ us, List.rel_append a1 b1, by rw [List.foldl_append, ← a2]; exact b2⟩

theorem valuesIn_cons (a b : String) (d : Str × Str) (ds : List (Str × Str)) : valuesIn [a, b] (d :: ds) =
    (if d.1 = a.toList ∨ d.1 = b.toList then [d.2] else []) ++ valuesIn [a, b] ds := by
  unfold valuesIn
  rw [List.filter_cons]
  by_cases h : d.1 = a.toList ∨ d.1 = b.toList
  · rw [if_pos h, if_pos (by simpa using h)]; rfl
  · rw [if_neg h, if_neg (by simpa using h)]; rfl

theorem opacity_loop (ds : List (Str × Str)) : ∀ {st st' : PathStyle F} {c c' : Cursor F}, declLoop st ds c = (.ok st', c') →
    Multiplied (valuesIn ["opacity", "fill-opacity"] ds) st.fillOpacity st'.fillOpacity ∧
    Multiplied (valuesIn ["opacity", "stroke-opacity"] ds) st.lineOpacity st'.lineOpacity := by
  induction ds with
  | nil =>
    intro st st' c c' h
    cases h
    exact ⟨⟨[], .nil, rfl⟩, ⟨[], .nil, rfl⟩⟩
  | cons d ds ih =>
    intro st st' c c' h
    rw [declLoop, SM.bind_run] at h
    rcases hr : readStyleAttr st d.1 d.2 c with ⟨r, c1⟩
    rw [hr] at h
    cases r with
    | ok st1 =>
      obtain ⟨h1, h2⟩ := opacity_read hr
      obtain ⟨i1, i2⟩ := ih h
      rw [valuesIn_cons, valuesIn_cons]
      constructor
      · refine multiplied_append (y := st1.fillOpacity) ?_ i1
        split at h1
        · rename_i hk; rw [if_pos hk]
          obtain ⟨z, hz, e⟩ := h1
          exact ⟨[z], .cons hz .nil, e⟩
        · rename_i hk; rw [if_neg hk, h1]
          exact ⟨[], .nil, rfl⟩
      · refine multiplied_append (y := st1.lineOpacity) ?_ i2
        split at h2
        · rename_i hk; rw [if_pos hk]
          obtain ⟨z, hz, e⟩ := h2
          exact ⟨[z], .cons hz .nil, e⟩
        · rename_i hk; rw [if_neg hk, h2]
          exact ⟨[], .nil, rfl⟩
    | err e => cases h
    | panic e => cases h
    | diverge => cases h

theorem cascade_opacity {V : List Elem → Cursor F → Prop} {ch : List Elem} {st : PathStyle F} (h : Cascade V ch st) :
    Multiplied (valuesAlong ["opacity", "fill-opacity"] ch) (num 1) st.fillOpacity ∧
    Multiplied (valuesAlong ["opacity", "stroke-opacity"] ch) (num 1) st.lineOpacity := by
  induction h with
  | root => exact ⟨⟨[], .nil, rfl⟩, ⟨[], .nil, rfl⟩⟩
  | elem h hs hv hl ih =>
    obtain ⟨h1, h2⟩ := opacity_loop _ hl
    rw [valuesAlong_cons, valuesAlong_cons, ← decls_eq_declared]
    exact ⟨multiplied_append ih.1 h1, multiplied_append ih.2 h2⟩

/-- C25, partial: in a balanced document that is read without error, the fill opacity of a path is the product of the values of
`opacity` and `fill-opacity` on the elements from the root to the one it comes from, multiplied in this order; the line opacity
is that of `opacity` and `stroke-opacity`. Missing: documents that use incomplete definitions, see `C25_use_false`. -/
theorem C25_opacity_partial {fuel : Nat} {m : ErrorMode} {pre post : List Token} {name : Str} {attrs : List Attr} {s : Svg F}
    {l : List Msg} {i : Nat} {p : SvgPath F} (hb : Balanced (pre ++ [.start name attrs])) {ch : List Elem}
    (hch : openFrom [] pre = some ch)
    (h : parse (F := F) fuel m (pre ++ .start name attrs :: post) .eof = .done (some s) none l)
    (hd : DrawnBy (F := F) fuel m pre (.start name attrs) i) (hp : s.svgPaths[i]? = some p) :
    (∃ zs : List F, List.Forall₂ (fun v z => parseBasicFloat v = .ok z) (valuesAlong ["opacity", "fill-opacity"] (⟨name, attrs⟩ :: ch)) zs ∧
      p.style.fillOpacity = zs.foldl (· *. ·) (num 1)) ∧
    (∃ zs : List F, List.Forall₂ (fun v z => parseBasicFloat v = .ok z) (valuesAlong ["opacity", "stroke-opacity"] (⟨name, attrs⟩ :: ch)) zs ∧
      p.style.lineOpacity = zs.foldl (· *. ·) (num 1)) :=
  cascade_opacity (drawnBy_cascade (V := fun _ _ => True) (W := fun _ _ _ => True) (fun _ _ _ _ => trivial)
    (fun _ _ _ _ _ _ _ _ _ _ _ => trivial) trivial hb hch h hd hp)

theorem foldl_mul (zs : List ℝ) : ∀ x : ℝ, zs.foldl (· *. ·) x = x * zs.prod := by
  induction zs with
  | nil => intro x; simp
  | cons z zs ih => intro x; rw [List.foldl_cons, ih, List.prod_cons, ← mul_assoc]; rfl

theorem read_values {ns : List Spelling} (hn : ∀ n ∈ ns, n.WF) : ∀ {zs : List ℝ},
    List.Forall₂ (fun v z => parseBasicFloat v = .ok z) (ns.map Spelling.text) zs → zs = ns.map fun n => (n.value : ℝ) := by
  induction ns with
  | nil => intro zs h; cases h; rfl
  | cons n ns ih =>
    intro zs h
    cases h with
    | cons h1 h2 =>
      rename_i z zs
      have := (C03_units_exact n (hn n List.mem_cons_self) (u := []) (f := 1) (by decide) (w := []) (w' := []) (w'' := [])
        (fun _ h => nomatch h) (fun _ h => nomatch h) (fun _ h => nomatch h) ⟨0, 0, 0, 0⟩ .width).1
      simp only [List.nil_append, List.append_nil, Rat.cast_one, mul_one] at this
      rw [this] at h1
      cases h1
      rw [List.map_cons, ← ih (fun n h => hn n (List.mem_cons_of_mem _ h)) h2]

/-- C25 in exact arithmetic, for values that are plain decimal numbers: the product of the numbers. Partial as
`C25_opacity_partial`. -/
theorem C25_product_partial {fuel : Nat} {m : ErrorMode} {pre post : List Token} {name : Str} {attrs : List Attr} {s : Svg ℝ}
    {l : List Msg} {i : Nat} {p : SvgPath ℝ} (hb : Balanced (pre ++ [.start name attrs])) {ch : List Elem}
    (hch : openFrom [] pre = some ch)
    (h : parse fuel m (pre ++ .start name attrs :: post) .eof = .done (some s) none l)
    (hd : DrawnBy (F := ℝ) fuel m pre (.start name attrs) i) (hp : s.svgPaths[i]? = some p) :
    (∀ ns : List Spelling, (∀ n ∈ ns, n.WF) → valuesAlong ["opacity", "fill-opacity"] (⟨name, attrs⟩ :: ch) = ns.map Spelling.text →
      p.style.fillOpacity = (ns.map fun n => (n.value : ℝ)).prod) ∧
    (∀ ns : List Spelling, (∀ n ∈ ns, n.WF) → valuesAlong ["opacity", "stroke-opacity"] (⟨name, attrs⟩ :: ch) = ns.map Spelling.text →
      p.style.lineOpacity = (ns.map fun n => (n.value : ℝ)).prod) := by
  obtain ⟨⟨zs, h1, h2⟩, ⟨us, h3, h4⟩⟩ := C25_opacity_partial hb hch h hd hp
  constructor
  · intro ns hn hv
    rw [hv] at h1
    rw [h2, foldl_mul, read_values hn h1]
    show ((1 : ℚ) : ℝ) * _ = _
    simp
  · intro ns hn hv
    rw [hv] at h3
    rw [h4, foldl_mul, read_values hn h3]
    show ((1 : ℚ) : ℝ) * _ = _
    simp

/-! ### C24 -/

/-- Below the root element, in a document without further `svg`. -/
structure BelowRoot (root : Elem) (vb : Bounds F) (ch : List Elem) (ts : List Token) (c : Cursor F) : Prop where
  chain : ∃ rel, ch = rel ++ [root] ∧ (openFrom rel ts).isSome
  noSvg : ∀ attrs, Token.start "svg".toList attrs ∉ ts
  box : c.svg.viewBox = vb
  defs : DefsQ NoSvgDef c

theorem step_unique {ch a b : List Elem} {t : Token} (h1 : Step ch t a) (h2 : Step ch t b) : a = b := by
  cases h1 <;> cases h2 <;> rfl

theorem belowRoot_step {root : Elem} {vb : Bounds F} {fuel : Nat} {ch ch1 : List Elem} {t : Token} {ts : List Token} {c c1 : Cursor F} {u : Unit}
    (hw : BelowRoot root vb ch (t :: ts) c) (hst : Step ch t ch1) (hr : readToken fuel t c = (.ok u, c1)) : BelowRoot root vb ch1 ts c1 := by
  obtain ⟨⟨rel, rfl, ho⟩, hn, hb, hd⟩ := hw
  have htq : TokQ NoSvgDef t := by
    cases t with
    | start n a => intro h; exact hn a (by rw [← show n = "svg".toList from h]; exact List.mem_cons_self)
    | _ => trivial
  have h1 := readToken_box fuel htq hd
  have h2 := readToken_defsQ (by show "endg".toList ≠ "svg".toList; decide) fuel htq hd
  rw [hr] at h1 h2
  refine ⟨?_, fun a h => hn a (List.mem_cons_of_mem _ h), h1.trans hb, h2⟩
  obtain ⟨rel', ho⟩ := Option.isSome_iff_exists.1 ho
  obtain ⟨rel1, hst1, ho1⟩ := openFrom_cons ho
  refine ⟨rel1, ?_, by rw [ho1]; rfl⟩
  exact step_unique hst (step_lift hst1 [root])

theorem openFrom_noTags : ∀ ts : List Token, NoTags ts → openFrom [] ts = some []
  | [], _ => rfl
  | t :: ts, ht => by
    have h0 := ht t List.mem_cons_self
    have ih := openFrom_noTags ts fun t h => ht t (List.mem_cons_of_mem _ h)
    cases t with
    | start n a => exact absurd rfl (h0.1 n a)
    | stop n => exact absurd rfl (h0.2 n)
    | chars x => exact ih
    | other => exact ih

/-- Outside of `defs` a start tag records nothing. -/
theorem start_outside_defsQ {Q : Definition → Prop} (fuel : Nat) (name : Str) (attrs : List Attr) {c : Cursor F} (hi : c.inDefs = false)
    (hc : DefsQ Q c) : DefsQ Q (readToken fuel (.start name attrs) c).2 := by
  rw [readToken, SM.bind_run]
  have hp := defsQ_elem (pushStyle_elem attrs c) hc
  have hE := pushStyle_elem attrs c
  rcases hr : pushStyle attrs c with ⟨r, d⟩
  rw [hr] at hp hE
  dsimp only at hp hE
  cases r with
  | ok u =>
    dsimp only
    rcases readStartElement_cases fuel name attrs d with ⟨hx, -, -, -, h⟩ | ⟨-, ⟨-, h⟩ | ⟨df, hd, ⟨-, h⟩ | ⟨-, c', hE, h⟩ | ⟨-, -, h⟩⟩⟩
    · rw [(by have := pushStyle_flag attrs c; rw [hr] at this; exact this.inDefs : d.inDefs = c.inDefs), hi] at hx
      cases hx
    · rw [h]; exact defsQ_elem (handleError_elem _ d) hp
    · rw [h]; exact defsQ_elem (drawFuncs_elem hd attrs d) hp
    · rw [h]; exact emit_defsQ hE (defsQ_elem (drawFuncs_elem hd attrs d) hp)
    · rw [h]; exact defsQ_elem (drawFuncs_elem hd attrs d) hp
  | err e => exact hp
  | panic s => exact hp
  | diverge => exact hp

/-- The style is the cascade of the open elements, all but the root's read with the view box of the root. -/
theorem within_cascade {root e : Elem} {rel : List Elem} {lead body post : List Token} (hw : Within root rel e lead body) {fuel : Nat}
    {m : ErrorMode} {s : Svg F} {l : List Msg} {i : Nat} {p : SvgPath F}
    (h : parse (F := F) fuel m (lead ++ .start root.name root.attrs :: (body ++ .start e.name e.attrs :: post)) .eof = .done (some s) none l)
    (hd : DrawnBy (F := F) fuel m (lead ++ .start root.name root.attrs :: body) (.start e.name e.attrs) i)
    (hp : s.svgPaths[i]? = some p) :
    ∃ c0, readToken fuel (.start root.name root.attrs) (initCursor (F := F) m) = (.ok (), c0) ∧
      Cascade (BoxAt c0.svg.viewBox) (e :: (rel ++ [root])) p.style := by
  have happ : lead ++ .start root.name root.attrs :: (body ++ .start e.name e.attrs :: post) =
      (lead ++ .start root.name root.attrs :: body) ++ .start e.name e.attrs :: post := by simp
  rw [happ] at h
  obtain ⟨c, c', cf, h1, h2, -, -, h4⟩ := drawnBy_states h hd hp
  have hlead := noTags_run (F := F) fuel m lead hw.prolog
  rw [readTokens_append, SM.bind_run, hlead] at h1
  dsimp only at h1
  rw [readTokens_cons, SM.bind_run] at h1
  rcases hr : readToken fuel (.start root.name root.attrs) (initCursor (F := F) m) with ⟨r, c0⟩
  rw [hr] at h1
  cases r with
  | ok u =>
    dsimp only at h1
    refine ⟨c0, rfl, ?_⟩
    obtain ⟨b0, -, -⟩ := balanced_run (F := F) (V := fun _ _ => True) (W := fun _ _ _ => True) (fuel := fuel) (fun _ _ _ _ => trivial)
      (fun _ _ _ _ _ _ _ _ _ _ _ => trivial) (.start root.name root.attrs :: (body ++ [.start e.name e.attrs])) lead [] [] _ _ ()
      (balAt_init m hw.balanced) trivial rfl (openFrom_noTags lead hw.prolog) hlead
    have hst0 : Step [] (.start root.name root.attrs) [root] := Step.start [] root.name root.attrs
    have b1 := b0.step hst0 hr
    have s1 := step_stackAt (V := BoxAt c0.svg.viewBox) b0 (show BoxAt _ [] (initCursor (F := F) m) from rfl)
      (show StackAt _ [] (initCursor (F := F) m).styleStack from rfl) hst0 hr
    have d1 : DefsQ NoSvgDef c0 := by
      have := start_outside_defsQ fuel root.name root.attrs (c := initCursor (F := F) m) rfl (defsQ_init NoSvgDef m)
      rwa [hr] at this
    have w1 : BelowRoot root c0.svg.viewBox [root] (body ++ [.start e.name e.attrs]) c0 := by
      refine ⟨⟨[], rfl, ?_⟩, hw.noSvg, rfl, d1⟩
      rw [openFrom_append, hw.inner]; rfl
    obtain ⟨b2, w2, s2⟩ := balanced_run (V := BoxAt c0.svg.viewBox) (W := BelowRoot root c0.svg.viewBox) (fuel := fuel)
      (fun ch ts c hw => by
        obtain ⟨rel, rfl, -⟩ := hw.chain
        show c.svg.viewBox = if _ then _ else _
        rw [if_neg (by simp)]; exact hw.box)
      (fun _ _ _ _ _ _ _ _ hw hst hr => belowRoot_step hw hst hr) [.start e.name e.attrs] body [root] (rel ++ [root]) c0 c () b1 w1 s1
      (openFrom_lift [root] body [] rel hw.inner) h1
    obtain ⟨top, rest, st, c1, e1, e2, -, new, e3, e4⟩ := start_stack b2.inv b2.useFine h2
    rw [e4 p (h4 new e3)]
    refine .elem (stackAt_top s2 e1) e1 ?_ e2
    show c.svg.viewBox = if _ then _ else _
    rw [if_neg (by simp)]; exact w2.box
  | err x => cases h1
  | panic x => cases h1
  | diverge => cases h1

theorem plainPaint_of {k : String} {ch : List Elem} (h : NoGradient k ch) : ∀ e ∈ ch, ∀ d ∈ decls e.attrs, PlainPaint k d := by
  intro e he d hd hk
  rw [decls_eq_declared] at hd
  refine h d.2 (List.mem_flatMap.2 ⟨e, List.mem_reverse.2 he, List.mem_map.2 ⟨d, List.mem_filter.2 ⟨hd, ?_⟩, rfl⟩⟩)
  simpa using hk

/-- The masks of a path are those that the elements from the root to its own select. Of more than three the first three are
certain, see `C29`. Partial: balanced documents. -/
theorem C24_masks_partial {fuel : Nat} {m : ErrorMode} {pre post : List Token} {name : Str} {attrs : List Attr} {s : Svg F}
    {l : List Msg} {i : Nat} {p : SvgPath F} (hb : Balanced (pre ++ [.start name attrs])) {ch : List Elem}
    (hch : openFrom [] pre = some ch)
    (h : parse (F := F) fuel m (pre ++ .start name attrs :: post) .eof = .done (some s) none l)
    (hd : DrawnBy (F := F) fuel m pre (.start name attrs) i) (hp : s.svgPaths[i]? = some p) :
    ∃ ids, List.Forall₂ (fun v id => parseSelector v = .ok id) (valuesAlong ["mask"] (⟨name, attrs⟩ :: ch)) ids ∧
      (maskNames s p).length = ids.length ∧ (maskNames s p).take 3 = ids.take 3 := by
  obtain ⟨c, c', cf, h1, h2, h3, hs, h4⟩ := drawnBy_states h hd hp
  obtain ⟨b1, b2, -⟩ := balanced_run (V := fun _ _ => True) (W := fun ch _ c => NamesAt ch c) (fun _ _ _ _ => trivial)
    (fun _ _ _ _ _ _ _ hj hn hst hr => step_named hj hn hst hr) [.start name attrs] pre [] ch _ c () (balAt_init m hb) (namesAt_init m)
    (show StackAt _ [] (initCursor (F := F) m).styleStack from rfl) hch h1
  obtain ⟨top, rest, st, c1, e1, e2, -, new, e3, e4⟩ := start_stack b1.inv b1.useFine h2
  obtain ⟨n1, -, n2⟩ := start_named b2 h2 e1 e2
  have hm := readTokens_maskPath fuel post c' n2
  rw [h3] at hm
  have hn := named_mono hm.2 n1
  dsimp only at hn
  rw [hs] at hn
  rw [← e4 p (h4 new e3)] at hn
  obtain ⟨hok, ids, f1, f2, f3⟩ := hn
  exact ⟨ids, f1, by rw [maskNames, read_length hok, f2], f3⟩

theorem selected_unique {vs ids ids' : List Str} (h : List.Forall₂ (fun v id => parseSelector v = .ok id) vs ids)
    (h' : List.Forall₂ (fun v id => parseSelector v = .ok id) vs ids') : ids' = ids := by
  induction h generalizing ids' with
  | nil => cases h'; rfl
  | cons a b ih =>
    cases h' with
    | cons a' b' => rw [a] at a'; cases a'; rw [ih b']

/-- C24, partial: two documents that have nothing in common but the element `e` and the elements it stands in (`rel`, and the root)
give the path drawn by `e` the same style: all fields agree; the paints do unless one of the elements refers to a gradient
(what that gives is C38); the first three masks and their number do (C29). Missing: documents with an `svg` other than
the root, see `C24_svg_false`, and documents that use incomplete definitions, see `C24_use_false`. -/
theorem C24_only_ancestors_partial {root e : Elem} {rel : List Elem} {lead1 body1 post1 lead2 body2 post2 : List Token}
    (hw1 : Within root rel e lead1 body1) (hw2 : Within root rel e lead2 body2) {fuel : Nat} {m : ErrorMode}
    {s1 s2 : Svg F} {l1 l2 : List Msg} {i1 i2 : Nat} {p1 p2 : SvgPath F}
    (h1 : parse fuel m (lead1 ++ .start root.name root.attrs :: (body1 ++ .start e.name e.attrs :: post1)) .eof = .done (some s1) none l1)
    (h2 : parse fuel m (lead2 ++ .start root.name root.attrs :: (body2 ++ .start e.name e.attrs :: post2)) .eof = .done (some s2) none l2)
    (d1 : DrawnBy (F := F) fuel m (lead1 ++ .start root.name root.attrs :: body1) (.start e.name e.attrs) i1)
    (d2 : DrawnBy (F := F) fuel m (lead2 ++ .start root.name root.attrs :: body2) (.start e.name e.attrs) i2)
    (hp1 : s1.svgPaths[i1]? = some p1) (hp2 : s2.svgPaths[i2]? = some p2) :
    p2.style = { p1.style with masks := p2.style.masks, fillerColor := p2.style.fillerColor, linerColor := p2.style.linerColor } ∧
    (NoGradient "fill" (e :: (rel ++ [root])) → p2.style.fillerColor = p1.style.fillerColor) ∧
    (NoGradient "stroke" (e :: (rel ++ [root])) → p2.style.linerColor = p1.style.linerColor) ∧
    (maskNames s2 p2).length = (maskNames s1 p1).length ∧ (maskNames s2 p2).take 3 = (maskNames s1 p1).take 3 := by
  obtain ⟨c1, r1, k1⟩ := within_cascade hw1 h1 d1 hp1
  obtain ⟨c2, r2, k2⟩ := within_cascade hw2 h2 d2 hp2
  rw [r1] at r2
  cases r2
  obtain ⟨a1, a2, a3⟩ := cascade_unique (f := NoGradient "fill" (e :: (rel ++ [root]))) (l := NoGradient "stroke" (e :: (rel ++ [root])))
    plainPaint_of plainPaint_of k1 k2
  have hap : ∀ lead body post : List Token, lead ++ .start root.name root.attrs :: (body ++ .start e.name e.attrs :: post) =
      (lead ++ .start root.name root.attrs :: body) ++ .start e.name e.attrs :: post := by intros; simp
  have hopen : ∀ lead body, Within root rel e lead body →
      openFrom [] (lead ++ .start root.name root.attrs :: body) = some (rel ++ [root]) := by
    intro lead body hw
    rw [openFrom_append, openFrom_noTags lead hw.prolog]
    exact openFrom_lift [root] body [] rel hw.inner
  have b1 := hw1.balanced
  have b2 := hw2.balanced
  rw [hap] at h1 h2 b1 b2
  obtain ⟨ids1, f1, g1, t1⟩ := C24_masks_partial b1 (hopen _ _ hw1) h1 d1 hp1
  obtain ⟨ids2, f2, g2, t2⟩ := C24_masks_partial b2 (hopen _ _ hw2) h2 d2 hp2
  have := selected_unique f1 f2
  subst this
  exact ⟨a1, a2, a3, by rw [g1, g2], by rw [t1, t2]⟩

end GoSvg

namespace GoSvg

open Spec

section Examples

attribute [local instance] asciiEnv
attribute [local instance] dummyLibm

instance (ts : List Token) : Decidable (NoTags ts) :=
  decidable_of_iff (∀ t ∈ ts, (match t with | .start _ _ => false | .stop _ => false | _ => true) = true) (by
    constructor
    · intro h t ht
      have := h t ht
      cases t <;> simp_all
    · intro h t ht
      have := h t ht
      cases t with
      | start n a => exact absurd rfl (this.1 n a)
      | stop n => exact absurd rfl (this.2 n)
      | _ => rfl)

/-- A root element with a view box. -/
def inRoot : Elem := ⟨"svg".toList, attrsOf [("viewBox", "0 0 100 100"), ("opacity", "0.5")]⟩

/-- A group with declarations. -/
def inGroup : Elem := ⟨"g".toList, attrsOf [("style", "opacity:.5;stroke-width:10%"), ("fill", "#102030"), ("mask", "url(#m)")]⟩

/-- A rectangle with some of its own. -/
def inRect : Elem := ⟨"rect".toList, attrsOf [("width", "4"), ("height", "4"), ("fill-opacity", "0.25"), ("stroke", "red")]⟩

/-- The tag of an element. -/
def tagOf (e : Elem) : Token := .start e.name e.attrs

/-- Elements before the group, with styles of their own. -/
def inBefore : List Token :=
  [.chars " ".toList] ++ elem "g" [("opacity", "0.1"), ("fill", "blue")] (elem "rect" [("width", "1"), ("height", "1")]) ++
    elem "defs" [] (elem "rect" [("id", "r"), ("width", "2"), ("height", "2"), ("opacity", "0.3")]) ++ elem "use" [("href", "#r")]

/-- ... and within it. -/
def inWithin : List Token := elem "g" [("stroke", "blue"), ("stroke-width", "7")] (elem "circle" [("r", "3"), ("mask", "url(#q)")])

/-- The end of the document. -/
def inPost : List Token := [.stop "rect".toList] ++ elem "g" [("opacity", "0")] ++ [.stop "g".toList, .stop "svg".toList]

theorem noSvg_of {ts : List Token} (h : (ts.all fun t => match t with | .start n _ => n ≠ "svg".toList | _ => true) = true) (attrs : List Attr) :
    Token.start "svg".toList attrs ∉ ts := by
  intro hm
  simpa using List.all_eq_true.1 h _ hm

/-- The document around the rectangle, once with many other elements ... -/
def inBody1 : List Token := inBefore ++ tagOf inGroup :: inWithin

theorem inBusy_within : Within inRoot [inGroup] inRect [.other, .chars "\n".toList] inBody1 :=
  ⟨by decide, by decide +kernel, noSvg_of (by decide +kernel), by decide +kernel, .inr (by decide +kernel)⟩

/-- ... and once without. -/
theorem inBare_within : Within inRoot [inGroup] inRect [] [tagOf inGroup] :=
  ⟨by decide, by decide +kernel, noSvg_of (by decide +kernel), by decide +kernel, .inl (by decide +kernel)⟩

/-- The hypotheses of `C24_only_ancestors_partial`, `C24_masks_partial` and `C25_opacity_partial` are met by documents with siblings,
definitions and `use`; the style shows the declarations of all three elements (here its width 10% of the view box, its masks and opacities). -/
theorem C24_example :
    (∃ s p, parse (F := F64) 8 .strict ([.other, .chars "\n".toList] ++ tagOf inRoot :: (inBody1 ++ tagOf inRect :: inPost)) .eof =
        .done (some s) none [] ∧
      DrawnBy (F := F64) 8 .strict ([.other, .chars "\n".toList] ++ tagOf inRoot :: inBody1) (tagOf inRect) 3 ∧ s.svgPaths[3]? = some p ∧
      p.style.lineWidth = num 10 ∧ p.style.lineOpacity = num (1 / 4) ∧ p.style.fillOpacity = num (1 / 16) ∧ maskNames s p = ["m".toList]) ∧
    ∃ s p, parse (F := F64) 8 .strict ([] ++ tagOf inRoot :: ([tagOf inGroup] ++ tagOf inRect :: inPost)) .eof = .done (some s) none [] ∧
      DrawnBy (F := F64) 8 .strict ([] ++ tagOf inRoot :: [tagOf inGroup]) (tagOf inRect) 0 ∧ s.svgPaths[0]? = some p := by
  constructor
  · have h : (match parse (F := F64) 8 .strict ([.other, .chars "\n".toList] ++ tagOf inRoot :: (inBody1 ++ tagOf inRect :: inPost)) .eof with
        | .done (some s) none [] => (match s.svgPaths[3]? with
          | some p => decide (p.style.lineWidth = num 10 ∧ p.style.lineOpacity = num (1 / 4) ∧ p.style.fillOpacity = num (1 / 16) ∧
              maskNames s p = ["m".toList])
          | none => false)
        | _ => false) = true := by decide +kernel
    split at h
    · rename_i s hs
      split at h
      · rename_i p hp
        exact ⟨s, p, hs, by decide +kernel, hp, of_decide_eq_true h⟩
      · cases h
    · cases h
  · have h : (match parse (F := F64) 8 .strict ([] ++ tagOf inRoot :: ([tagOf inGroup] ++ tagOf inRect :: inPost)) .eof with
        | .done (some s) none [] => (match s.svgPaths[0]? with | some _ => true | none => false)
        | _ => false) = true := by decide +kernel
    split at h
    · rename_i s hs
      split at h
      · rename_i p hp
        exact ⟨s, p, hs, by decide +kernel, hp⟩
      · cases h
    · cases h

/-- The style of path `i` of a document. -/
def styleAt (ts : List Token) (i : Nat) : Option (PathStyle F64) := (svgOf ts).bind fun s => s.svgPaths[i]?.map (·.style)

/-- C24 does not hold with a second `svg`: an empty sibling with a view box of its own changes what a percentage of a later
element means. The two documents differ in this sibling only, and both are balanced. -/
theorem C24_svg_false :
    let other := elem "svg" [("viewBox", "0 0 10 10")]
    Balanced ([tagOf inRoot] ++ other ++ [tagOf inGroup, tagOf inRect]) ∧ Balanced ([tagOf inRoot] ++ [tagOf inGroup, tagOf inRect]) ∧
    DrawnBy (F := F64) 8 .strict ([tagOf inRoot] ++ other ++ [tagOf inGroup]) (tagOf inRect) 0 ∧
    DrawnBy (F := F64) 8 .strict ([tagOf inRoot] ++ [tagOf inGroup]) (tagOf inRect) 0 ∧
    (styleAt ([tagOf inRoot] ++ other ++ [tagOf inGroup, tagOf inRect] ++ inPost) 0).map (·.lineWidth) = some (num 1) ∧
    (styleAt ([tagOf inRoot] ++ [tagOf inGroup, tagOf inRect] ++ inPost) 0).map (·.lineWidth) = some (num 10) := by
  exact ⟨⟨by decide +kernel, .inl (by decide +kernel)⟩, ⟨by decide +kernel, .inl (by decide +kernel)⟩, by decide +kernel, by decide +kernel,
    by decide +kernel, by decide +kernel⟩

/-- A rectangle with an `id` in a group in `defs`. -/
def inDefsDoc : List Token := elem "defs" [] (elem "g" [] (elem "rect" [("id", "r"), ("width", "2"), ("height", "2")]))

/-- The group a rectangle stands in. -/
def inHalf : Token := .start "g".toList (attrsOf [("opacity", "0.5")])

/-- C24 and C25 do not hold for all documents with `use`: the recorded rectangle ends with the end tag of its group, so the `use` takes
one style too many from the stack, and the rectangle behind it loses the opacity of the group it stands in. -/
theorem C24_use_false :
    let pre := [tagOf ⟨"svg".toList, []⟩] ++ inDefsDoc ++ [inHalf]
    let rect := tagOf ⟨"rect".toList, attrsOf [("width", "4"), ("height", "4")]⟩
    let post := [.stop "rect".toList, .stop "g".toList, .stop "svg".toList]
    WellNested (pre ++ elem "use" [("href", "#r")] ++ rect :: post) ∧
    DrawnBy (F := F64) 8 .strict (pre ++ elem "use" [("href", "#r")]) rect 1 ∧ DrawnBy (F := F64) 8 .strict pre rect 0 ∧
    (styleAt (pre ++ elem "use" [("href", "#r")] ++ rect :: post) 1).map (·.fillOpacity) = some (num 1) ∧
    (styleAt (pre ++ rect :: post) 0).map (·.fillOpacity) = some (num (1 / 2)) := by
  decide +kernel

/-- The same document against C25: one element around the rectangle declares an opacity, `0.5`, and the rectangle's is 1. -/
theorem C25_use_false :
    let pre := [tagOf ⟨"svg".toList, []⟩] ++ inDefsDoc ++ [inHalf] ++ elem "use" [("href", "#r")]
    let rect : Elem := ⟨"rect".toList, attrsOf [("width", "4"), ("height", "4")]⟩
    let post := [.stop "rect".toList, .stop "g".toList, .stop "svg".toList]
    WellNested (pre ++ tagOf rect :: post) ∧ DrawnBy (F := F64) 8 .strict pre (tagOf rect) 1 ∧
    (openFrom [] pre).map (fun ch => valuesAlong ["opacity", "fill-opacity"] (rect :: ch)) = some ["0.5".toList] ∧
    (styleAt (pre ++ tagOf rect :: post) 1).map (·.fillOpacity) = some (num 1) := by
  decide +kernel

end Examples

end GoSvg
