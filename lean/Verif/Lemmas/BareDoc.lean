import Verif.Lemmas.Bare
import Verif.Lemmas.Strings
import Verif.Lemmas.Styles

/-! Attributes that mean nothing, from the loops over attributes to documents. -/

set_option linter.unusedSectionVars false

namespace GoSvg

open Spec

variable {F : Type} [GoFloat F] [GoEnv]

open SM (get modify throw lift panic diverge forEach)

/-! ### Attributes -/

theorem unknown_not {tag : Str} {a : Attr} (h : Known tag a = false) : a.name ≠ "id".toList ∧ a.name ≠ "style".toList ∧
    toLower a.name ≠ "style".toList ∧ (∀ n ∈ ownNames tag, a.name ≠ n.toList) ∧
    ∀ n ∈ presentation, trimSpace (toLower (a.name.takeWhile (· ≠ ':'))) ≠ n.toList := by
  unfold Known Styling at h
  simp only [Bool.or_eq_false_iff, decide_eq_false_iff_not, List.any_eq_false, decide_eq_true_eq] at h
  obtain ⟨⟨⟨h1, h2⟩, h3, h5⟩, h4⟩ := h
  exact ⟨h1, h2, h3, fun n hn e => h4 n hn e.symm, fun n hn e => h5 n hn e.symm⟩

/-- A piece with a colon: what comes before the first colon, and at least one piece after it. -/
theorem split_first (sep : Char) (s t : Str) : ∃ v vs, split sep (s ++ sep :: t) = s.takeWhile (· ≠ sep) :: v :: vs := by
  induction s with
  | nil =>
    rw [List.nil_append, split, if_pos rfl]
    cases h : split sep t with
    | nil => exact absurd h (split_ne_nil sep t)
    | cons v vs => exact ⟨v, vs, rfl⟩
  | cons c cs ih =>
    obtain ⟨v, vs, ih⟩ := ih
    rw [List.cons_append, split]
    by_cases hc : c = sep
    · rw [if_pos hc, ih]
      exact ⟨cs.takeWhile (· ≠ sep), v :: vs, by rw [List.takeWhile_cons, if_neg (by simpa using hc)]⟩
    · rw [if_neg hc, ih]
      exact ⟨v, vs, by rw [List.takeWhile_cons, if_pos (by simpa using hc)]⟩

theorem readStyleAttr_unknown {k : Str} (h : ∀ n ∈ presentation, k ≠ n.toList) (st : PathStyle F) (v : Str) (c : Cursor F) :
    readStyleAttr st k v c = (.ok st, c) := by
  simp only [presentation, List.forall_mem_cons, List.not_mem_nil, false_implies, implies_true, and_true] at h
  obtain ⟨h1, h2, h3, h4, h5, h6, h7, h8, h9, h10, h11, h12, h13, h14, h15, h16⟩ := h
  unfold readStyleAttr
  rw [SM.bind_run, SM.get_run]
  dsimp only
  rw [if_neg h1, if_neg h2, if_neg h4, if_neg h10, if_neg h8, if_neg h7, if_neg h9, if_neg h11, if_neg h5, if_neg h13, if_neg h12,
    if_neg (by simp only [not_or]; exact ⟨h14, h6, h3⟩), if_neg h15, if_neg h16]
  rfl

theorem pairsLoop_also : ∀ (ps qs : List Str) (st : PathStyle F) (c : Cursor F),
    pairsLoop st (ps ++ qs) c = (pairsLoop st ps >>= fun st => pairsLoop st qs) c
  | [], qs, st, c => rfl
  | p :: ps, qs, st, c => by
    rw [List.cons_append, pairsLoop, pairsLoop]
    rcases split ':' p with _ | ⟨k, _ | ⟨v, vs⟩⟩
    · exact pairsLoop_also ps qs st c
    · exact pairsLoop_also ps qs st c
    · dsimp only
      rw [SM.bind_run, SM.bind_run, SM.bind_run]
      rcases readStyleAttr st (trimSpace (toLower k)) (trimSpace v) c with ⟨r, c'⟩
      cases r with
      | ok st' =>
        dsimp only
        rw [pairsLoop_also ps qs st' c', SM.bind_run]
      | err e => rfl
      | panic e => rfl
      | diverge => rfl

theorem pairs_bare (tag : Str) : ∀ (attrs : List Attr) (st : PathStyle F),
    pairsLoop st (stylePairs (bareAttrs tag attrs)) = pairsLoop st (stylePairs attrs)
  | [], st => rfl
  | a :: as, st => by
    unfold bareAttrs
    rw [List.filter_cons]
    cases hk : Known tag a with
    | true =>
      rw [if_pos rfl, stylePairs, stylePairs]
      split
      · funext c
        rw [pairsLoop_also, pairsLoop_also, SM.bind_run, SM.bind_run]
        rcases pairsLoop st (split ';' a.value) c with ⟨r, c'⟩
        cases r with
        | ok st' => exact congrFun (pairs_bare tag as st') c'
        | err e => rfl
        | panic e => rfl
        | diverge => rfl
      · rw [pairsLoop, pairsLoop]
        have ih := fun st : PathStyle F => pairs_bare tag as st
        unfold bareAttrs at ih
        simp only [ih]
    | false =>
      obtain ⟨-, -, h3, -, h5⟩ := unknown_not hk
      rw [if_neg (by simp), stylePairs, if_neg h3]
      obtain ⟨v, vs, hs⟩ := split_first ':' a.name a.value
      rw [pairsLoop, hs]
      funext c
      dsimp only
      rw [SM.bind_run, readStyleAttr_unknown h5]
      exact congrFun (pairs_bare tag as st) c

/-- Attributes that have nothing to do with the style. -/
theorem pairs_unstyled : ∀ {attrs : List Attr}, (∀ a ∈ attrs, Styling a = false) → ∀ st : PathStyle F,
    pairsLoop st (stylePairs attrs) = pairsLoop st (stylePairs [])
  | [], _, st => rfl
  | a :: as, ha, st => by
    have hk := ha a List.mem_cons_self
    unfold Styling at hk
    simp only [Bool.or_eq_false_iff, decide_eq_false_iff_not, List.any_eq_false, decide_eq_true_eq] at hk
    obtain ⟨h3, h5⟩ := hk
    have e : stylePairs (a :: as) = (a.name ++ ':' :: a.value) :: stylePairs as := by rw [stylePairs, if_neg h3]
    obtain ⟨v, vs, hs⟩ := split_first ':' a.name a.value
    rw [e, pairsLoop, hs]
    funext c
    dsimp only
    rw [SM.bind_run, readStyleAttr_unknown fun n hn e => h5 n hn e.symm]
    exact congrFun (pairs_unstyled (fun b hb => ha b (List.mem_cons_of_mem _ hb)) st) c

theorem pushStyle_plain {attrs : List Attr} (ha : ∀ a ∈ attrs, Styling a = false) {c : Cursor F} {top : PathStyle F} {rest : List (PathStyle F)}
    (hs : c.styleStack = top :: rest) : pushStyle attrs c = (.ok (), { c with styleStack := top :: c.styleStack }) := by
  unfold pushStyle
  rw [SM.bind_run, SM.get_run]
  dsimp only
  rw [hs]
  dsimp only
  rw [SM.bind_run, pairs_unstyled ha, ← hs]
  rfl

theorem pushStyle_bare (tag : Str) (attrs : List Attr) : (pushStyle (bareAttrs tag attrs) : CM F Unit) = pushStyle attrs := by
  unfold pushStyle
  simp only [pairs_bare]

theorem loop_bare {β : Type} {step : β → Attr → Res β} {tag : Str} (h : ∀ a, Known tag a = false → ∀ b, step b a = .ok b) :
    ∀ (attrs : List Attr) (b : β), Res.loop step b (bareAttrs tag attrs) = Res.loop step b attrs
  | [], b => rfl
  | a :: as, b => by
    have ih := fun b => loop_bare h as b
    unfold bareAttrs at ih ⊢
    rw [List.filter_cons]
    cases hk : Known tag a with
    | true => rw [if_pos rfl, Res.loop, Res.loop]; simp only [ih]
    | false => rw [if_neg (by simp), Res.loop, h a hk]; exact ih b

theorem attrLoop_bare {β : Type} {step : β → Attr → CM F β} {tag : Str} (h : ∀ a, Known tag a = false → ∀ b, step b a = pure b) :
    ∀ (attrs : List Attr) (b : β), attrLoop step b (bareAttrs tag attrs) = attrLoop step b attrs
  | [], b => rfl
  | a :: as, b => by
    have ih := fun b => attrLoop_bare h as b
    unfold bareAttrs at ih ⊢
    rw [List.filter_cons]
    cases hk : Known tag a with
    | true => rw [if_pos rfl, attrLoop, attrLoop]; simp only [ih]
    | false =>
      rw [if_neg (by simp), attrLoop, h a hk]
      exact ih b

/-- The names of the attributes of an element, one by one. -/
theorem unknown_own {tag : String} {a : Attr} (h : Known tag.toList a = false) {ns : List String} (hn : ownNames tag.toList = ns) :
    ∀ n ∈ ns, a.name ≠ n.toList := by
  subst hn
  exact (unknown_not h).2.2.2.1

/-! ### Elements -/

theorem svgF_bare (attrs : List Attr) : (svgF (bareAttrs "svg".toList attrs) : CM F Unit) = svgF attrs := by
  unfold svgF
  rw [attrLoop_bare]
  intro a h b
  have := unknown_own (ns := ["viewBox", "width", "height"]) h (by decide)
  simp only [List.forall_mem_cons, List.not_mem_nil, false_implies, implies_true, and_true] at this
  obtain ⟨h1, h2, h3⟩ := this
  unfold svgAttr
  rw [if_neg h1, if_neg h2, if_neg h3]

theorem rectF_bare (fuel : Nat) (attrs : List Attr) : (rectF fuel (bareAttrs "rect".toList attrs) : CM F Unit) = rectF fuel attrs := by
  unfold rectF
  have : ∀ vb : Bounds F, ∀ b, Res.loop (rectAttr vb) b (bareAttrs "rect".toList attrs) = Res.loop (rectAttr vb) b attrs := fun vb =>
    loop_bare (fun a h b => by
      have := unknown_own (ns := ["x", "y", "width", "height", "rx", "ry"]) h (by decide)
      simp only [List.forall_mem_cons, List.not_mem_nil, false_implies, implies_true, and_true] at this
      obtain ⟨h1, h2, h3, h4, h5, h6⟩ := this
      unfold rectAttr
      rw [if_neg h1, if_neg h2, if_neg h3, if_neg h4, if_neg h5, if_neg h6]) attrs
  simp only [this]

theorem circleF_bare {tag : String} (ht : ownNames tag.toList = ["cx", "cy", "r", "rx", "ry"]) (attrs : List Attr) :
    (circleF (bareAttrs tag.toList attrs) : CM F Unit) = circleF attrs := by
  unfold circleF
  have : ∀ vb : Bounds F, ∀ b, Res.loop (circleAttr vb) b (bareAttrs tag.toList attrs) = Res.loop (circleAttr vb) b attrs := fun vb =>
    loop_bare (fun a h b => by
      have := unknown_own h ht
      simp only [List.forall_mem_cons, List.not_mem_nil, false_implies, implies_true, and_true] at this
      obtain ⟨h1, h2, h3, h4, h5⟩ := this
      unfold circleAttr
      rw [if_neg h1, if_neg h2, if_neg h3, if_neg h4, if_neg h5]) attrs
  simp only [this]

theorem lineF_bare (attrs : List Attr) : (lineF (bareAttrs "line".toList attrs) : CM F Unit) = lineF attrs := by
  unfold lineF
  have : ∀ vb : Bounds F, ∀ b, Res.loop (lineAttr vb) b (bareAttrs "line".toList attrs) = Res.loop (lineAttr vb) b attrs := fun vb =>
    loop_bare (fun a h b => by
      have := unknown_own (ns := ["x1", "y1", "x2", "y2"]) h (by decide)
      simp only [List.forall_mem_cons, List.not_mem_nil, false_implies, implies_true, and_true] at this
      obtain ⟨h1, h2, h3, h4⟩ := this
      unfold lineAttr
      rw [if_neg h1, if_neg h3, if_neg h2, if_neg h4]) attrs
  simp only [this]

theorem maskF_bare (attrs : List Attr) : (maskF (bareAttrs "mask".toList attrs) : CM F Unit) = maskF attrs := by
  unfold maskF
  have : ∀ vb : Bounds F, ∀ b, Res.loop (maskAttr vb) b (bareAttrs "mask".toList attrs) = Res.loop (maskAttr vb) b attrs := fun vb =>
    loop_bare (fun a h b => by
      have := unknown_own (ns := ["x", "y", "width", "height"]) h (by decide)
      simp only [List.forall_mem_cons, List.not_mem_nil, false_implies, implies_true, and_true] at this
      obtain ⟨h1, h2, h3, h4⟩ := this
      unfold maskAttr
      rw [if_neg (unknown_not h).1, if_neg h1, if_neg h2, if_neg h3, if_neg h4]) attrs
  simp only [this]

theorem polylineF_bare {tag : String} (ht : ownNames tag.toList = ["points"]) (attrs : List Attr) :
    (polylineF (bareAttrs tag.toList attrs) : CM F Unit) = polylineF attrs := by
  unfold polylineF
  rw [attrLoop_bare]
  intro a h b
  have := unknown_own h ht
  exact if_neg (this _ List.mem_cons_self)

theorem polygonF_bare (attrs : List Attr) : (polygonF (bareAttrs "polygon".toList attrs) : CM F Unit) = polygonF attrs := by
  unfold polygonF
  rw [polylineF_bare (by decide)]

theorem pathF_bare (attrs : List Attr) : (pathF (bareAttrs "path".toList attrs) : CM F Unit) = pathF attrs := by
  unfold pathF
  rw [attrLoop_bare]
  intro a h b
  have := unknown_own (ns := ["d"]) h (by decide)
  unfold pathAttr
  rw [if_neg (this _ List.mem_cons_self)]

theorem linearGradientF_bare (attrs : List Attr) :
    (linearGradientF (bareAttrs "linearGradient".toList attrs) : CM F Unit) = linearGradientF attrs := by
  unfold linearGradientF
  rw [attrLoop_bare]
  intro a h b
  have := unknown_own (ns := ["x1", "y1", "x2", "y2", "gradientTransform", "gradientUnits", "spreadMethod"]) h (by decide)
  simp only [List.forall_mem_cons, List.not_mem_nil, false_implies, implies_true, and_true] at this
  obtain ⟨h1, h2, h3, h4, h5, h6, h7⟩ := this
  unfold linAttr readGradAttr
  rw [if_neg (unknown_not h).1, if_neg h1, if_neg h2, if_neg h3, if_neg h4, if_neg h5, if_neg h6, if_neg h7]
  rfl

theorem radialGradientF_bare (attrs : List Attr) :
    (radialGradientF (bareAttrs "radialGradient".toList attrs) : CM F Unit) = radialGradientF attrs := by
  unfold radialGradientF
  rw [attrLoop_bare]
  intro a h b
  have := unknown_own (ns := ["cx", "cy", "fx", "fy", "r", "fr", "gradientTransform", "gradientUnits", "spreadMethod"]) h (by decide)
  simp only [List.forall_mem_cons, List.not_mem_nil, false_implies, implies_true, and_true] at this
  obtain ⟨h1, h2, h3, h4, h5, h6, h7, h8, h9⟩ := this
  unfold radAttr readGradAttr
  rw [if_neg (unknown_not h).1, if_neg h1, if_neg h2, if_neg h3, if_neg h4, if_neg h5, if_neg h6, if_neg h7, if_neg h8, if_neg h9]
  rfl

theorem find_bare (tag : Str) : ∀ attrs : List Attr, (bareAttrs tag attrs).find? (fun a => a.name = "style".toList) = attrs.find? (fun a => a.name = "style".toList)
  | [] => rfl
  | a :: as => by
    have ih := find_bare tag as
    unfold bareAttrs at ih ⊢
    rw [List.filter_cons, List.find?_cons]
    cases hk : Known tag a with
    | true =>
      rw [if_pos rfl, List.find?_cons, ih]
    | false =>
      rw [if_neg (by simp), ih]
      rw [show (decide (a.name = "style".toList)) = false from decide_eq_false (unknown_not hk).2.1]

theorem loop_also {β : Type} {step : β → Attr → Res β} : ∀ (as bs : List Attr) (b : β), Res.loop step b (as ++ bs) =
    (match Res.loop step b as with
      | .ok b => Res.loop step b bs
      | .err e => .err e
      | .panic s => .panic s
      | .diverge => .diverge)
  | [], bs, b => rfl
  | a :: as, bs, b => by
    rw [List.cons_append, Res.loop, Res.loop]
    cases step b a with
    | ok b' => exact loop_also as bs b'
    | err e => rfl
    | panic e => rfl
    | diverge => rfl

theorem stopF_bare (attrs : List Attr) : (stopF (bareAttrs "stop".toList attrs) : CM F Unit) = stopF attrs := by
  have hl := loop_bare (step := stopAttr (F := F)) (tag := "stop".toList) (fun a h b => by
      have := unknown_own (ns := ["offset", "stop-color", "stop-opacity"]) h (by decide)
      simp only [List.forall_mem_cons, List.not_mem_nil, false_implies, implies_true, and_true] at this
      obtain ⟨h1, h2, h3⟩ := this
      unfold stopAttr
      rw [if_neg h1, if_neg h2, if_neg h3]) attrs
  have : ∀ b, Res.loop (stopAttr (F := F)) b (appendStyleAttrs (bareAttrs "stop".toList attrs) ["stop-color".toList, "stop-opacity".toList]) =
      Res.loop stopAttr b (appendStyleAttrs attrs ["stop-color".toList, "stop-opacity".toList]) := by
    intro b
    unfold appendStyleAttrs
    rw [find_bare]
    dsimp only
    split <;> split
    · exact hl b
    · rw [loop_also, loop_also, hl]
    · exact hl b
    · rw [loop_also, loop_also, hl]
  unfold stopF
  simp only [this]

/-- The function of an element does not look at attributes that mean nothing. -/
theorem drawFuncs_bare {fuel : Nat} {use : List Attr → CM F Unit} {tag : Str} {df : List Attr → CM F Unit}
    (h : drawFuncs fuel use tag = some df) (hu : tag ≠ "use".toList) (attrs : List Attr) : df (bareAttrs tag attrs) = df attrs := by
  unfold drawFuncs at h
  by_cases h1 : tag = "svg".toList
  · subst h1; rw [if_pos rfl] at h; cases h; exact svgF_bare attrs
  rw [if_neg h1] at h; clear h1
  by_cases h1 : tag = "g".toList
  · rw [if_pos h1] at h; cases h; rfl
  rw [if_neg h1] at h; clear h1
  by_cases h1 : tag = "line".toList
  · subst h1; rw [if_pos rfl] at h; cases h; exact lineF_bare attrs
  rw [if_neg h1] at h; clear h1
  by_cases h1 : tag = "stop".toList
  · subst h1; rw [if_pos rfl] at h; cases h; exact stopF_bare attrs
  rw [if_neg h1] at h; clear h1
  by_cases h1 : tag = "rect".toList
  · subst h1; rw [if_pos rfl] at h; cases h; exact rectF_bare fuel attrs
  rw [if_neg h1] at h; clear h1
  by_cases h1 : tag = "circle".toList
  · subst h1; rw [if_pos rfl] at h; cases h; exact circleF_bare (by decide) attrs
  rw [if_neg h1] at h; clear h1
  by_cases h1 : tag = "ellipse".toList
  · subst h1; rw [if_pos rfl] at h; cases h; exact circleF_bare (by decide) attrs
  rw [if_neg h1] at h; clear h1
  by_cases h1 : tag = "polyline".toList
  · subst h1; rw [if_pos rfl] at h; cases h; exact polylineF_bare (by decide) attrs
  rw [if_neg h1] at h; clear h1
  by_cases h1 : tag = "polygon".toList
  · subst h1; rw [if_pos rfl] at h; cases h; exact polygonF_bare attrs
  rw [if_neg h1] at h; clear h1
  by_cases h1 : tag = "path".toList
  · subst h1; rw [if_pos rfl] at h; cases h; exact pathF_bare attrs
  rw [if_neg h1] at h; clear h1
  by_cases h1 : tag = "desc".toList
  · rw [if_pos h1] at h; cases h; rfl
  rw [if_neg h1] at h; clear h1
  by_cases h1 : tag = "defs".toList
  · rw [if_pos h1] at h; cases h; rfl
  rw [if_neg h1] at h; clear h1
  by_cases h1 : tag = "title".toList
  · rw [if_pos h1] at h; cases h; rfl
  rw [if_neg h1] at h; clear h1
  by_cases h1 : tag = "linearGradient".toList
  · subst h1; rw [if_pos rfl] at h; cases h; exact linearGradientF_bare attrs
  rw [if_neg h1] at h; clear h1
  by_cases h1 : tag = "radialGradient".toList
  · subst h1; rw [if_pos rfl] at h; cases h; exact radialGradientF_bare attrs
  rw [if_neg h1] at h; clear h1
  by_cases h1 : tag = "mask".toList
  · subst h1; rw [if_pos rfl] at h; cases h; exact maskF_bare attrs
  rw [if_neg h1, if_neg hu] at h
  cases h

/-! ### Uses -/

theorem find_bareDefs (m : GoMap (List Definition)) (id : Str) : (bareDefs m).find id = (m.find id).map (List.map Definition.bare) := by
  unfold bareDefs GoMap.find
  induction m with
  | nil => rfl
  | cons e m ih =>
    rw [List.map_cons, List.lookup_cons, List.lookup_cons, ih]
    cases id == e.1 <;> rfl

theorem insert_bareDefs (m : GoMap (List Definition)) (id : Str) (ds : List Definition) :
    bareDefs (m.insert id ds) = (bareDefs m).insert id (ds.map Definition.bare) := by
  unfold bareDefs GoMap.insert
  rw [List.map_cons, List.filter_map]
  rfl

variable {T : Bool}

/-- Two programs that do the same but for texts and definitions. -/
def Likewise (T : Bool) {α : Type} (m m' : CM F α) : Prop := ∀ c, m' (c.bare T) = ((m c).1, (m c).2.bare T)

theorem likewise_of {α : Type} {m : CM F α} (h : Unread T m) : Likewise T m m := h

theorem likewise_bind {α β : Type} {m m' : CM F α} {f f' : α → CM F β} (h1 : Likewise T m m') (h2 : ∀ a, Likewise T (f a) (f' a)) :
    Likewise T (m >>= f) (m' >>= f') := by
  intro c
  rw [SM.bind_run, SM.bind_run, h1 c]
  rcases m c with ⟨r, c1⟩
  cases r with
  | ok a => exact h2 a c1
  | err e => rfl
  | panic e => rfl
  | diverge => rfl

theorem useLoop_likewise {draw : Str → Option (List Attr → CM F Unit)}
    (hd : ∀ tag df, draw tag = some df → ∀ attrs, Likewise T (df attrs) (df (bareAttrs tag attrs))) :
    ∀ (ds : List Definition), Likewise T (useLoop draw ds) (useLoop draw (ds.map Definition.bare))
  | [] => fun _ => rfl
  | d :: ds => by
    have ih := useLoop_likewise hd ds
    have hpop : Likewise T (do popStyle; useLoop draw ds) (do popStyle; useLoop draw (ds.map Definition.bare)) :=
      likewise_bind (likewise_of popStyle_unread) fun _ => ih
    rw [List.map_cons, useLoop, useLoop]
    show Likewise T _ (if d.tag = "endg".toList then _ else _)
    by_cases heg : d.tag = "endg".toList
    · rw [if_pos heg, if_pos heg]; exact hpop
    · rw [if_neg heg, if_neg heg]
      refine likewise_bind ?_ fun _ => ?_
      · show Likewise T _ (pushStyle (bareAttrs d.tag d.attrs))
        rw [pushStyle_bare]
        exact likewise_of (pushStyle_unread _)
      · show Likewise T _ (match draw d.tag with | none => _ | some df => _)
        cases hdr : draw d.tag with
        | none => exact likewise_of (handleError_unread _)
        | some df =>
          refine likewise_bind (hd _ _ hdr d.attrs) fun _ => ?_
          show Likewise T _ (if d.tag ≠ "g".toList then _ else _)
          split
          · exact hpop
          · exact ih

theorem useBody_likewise {draw : Str → Option (List Attr → CM F Unit)}
    (hd : ∀ tag df, draw tag = some df → ∀ attrs, Likewise T (df attrs) (df (bareAttrs tag attrs))) (href : Str) :
    Likewise T (useBody draw href) (useBody draw href) := by
  intro c
  unfold useBody
  by_cases hn : href = []
  · rw [if_pos hn]; rfl
  rw [if_neg hn]
  split
  · rename_i id
    dsimp only
    rw [SM.bind_run, SM.get_run, SM.bind_run, SM.get_run]
    dsimp only
    rw [show (c.bare T).svg.defs = bareDefs c.svg.defs from rfl, find_bareDefs]
    cases c.svg.defs.find id with
    | none => rfl
    | some ds => exact useLoop_likewise hd ds c
  · rfl

theorem useF_bare (fuel : Nat) (attrs : List Attr) : (useF fuel (bareAttrs "use".toList attrs) : CM F Unit) = useF fuel attrs := by
  cases fuel with
  | zero => rfl
  | succ fuel =>
    have : ∀ vb : Bounds F, ∀ b, Res.loop (useAttr vb) b (bareAttrs "use".toList attrs) = Res.loop (useAttr vb) b attrs := fun vb =>
      loop_bare (fun a h b => by
        have := unknown_own (ns := ["href", "x", "y"]) h (by decide)
        simp only [List.forall_mem_cons, List.not_mem_nil, false_implies, implies_true, and_true] at this
        obtain ⟨h1, h2, h3⟩ := this
        unfold useAttr
        rw [if_neg h1, if_neg h2, if_neg h3]) attrs
    rw [useF, useF]
    simp only [this]

theorem useF_unread : ∀ (fuel : Nat) (attrs : List Attr), Unread T (useF fuel attrs : CM F Unit)
  | 0, _ => fun _ => rfl
  | fuel + 1, attrs => by
    rw [useF]
    refine unread_get (fun _ => rfl) fun c => unread_bind (unread_lift _) fun v => ?_
    have hb : Likewise T (useBody (drawFuncs fuel (useF fuel)) v.href : CM F Unit) (useBody (drawFuncs fuel (useF fuel)) v.href) := by
      refine useBody_likewise ?_ _
      intro tag df h attrs
      by_cases hu : tag = "use".toList
      · subst hu; rw [drawFuncs_use] at h; cases h; rw [useF_bare]; exact useF_unread fuel attrs
      · rw [drawFuncs_bare h hu]; exact drawFuncs_unread h hu attrs
    intro c
    unfold withOffset
    have := hb { c with pc := { c.pc with curX := v.x, curY := v.y } }
    show (match useBody (drawFuncs fuel (useF fuel)) v.href (({ c with pc := { c.pc with curX := v.x, curY := v.y } } : Cursor F).bare T) with
        | (r, c) => (r, ({ c with pc := { c.pc with curX := num 0, curY := num 0 } } : Cursor F))) = _
    rw [this]
    rcases useBody (drawFuncs fuel (useF fuel)) v.href { c with pc := { c.pc with curX := v.x, curY := v.y } } with ⟨r2, c2⟩
    rfl

/-! ### Tokens -/

theorem lastID_bare (tag : Str) (attrs : List Attr) : lastID (bareAttrs tag attrs) = lastID attrs := by
  have : ∀ (attrs : List Attr) (x : Str), (bareAttrs tag attrs).foldl (fun id a => if a.name = "id".toList then a.value else id) x =
      attrs.foldl (fun id a => if a.name = "id".toList then a.value else id) x := by
    intro attrs
    induction attrs with
    | nil => intro x; rfl
    | cons a as ih =>
      intro x
      unfold bareAttrs at ih ⊢
      rw [List.filter_cons]
      cases hk : Known tag a with
      | true => rw [if_pos rfl, List.foldl_cons, List.foldl_cons, ih]
      | false => rw [if_neg (by simp), List.foldl_cons, if_neg (unknown_not hk).1, ih]
  exact this attrs []

theorem recordDef_bare (name : Str) (attrs : List Attr) (c : Cursor F) :
    recordDef name (bareAttrs name attrs) (c.bare T) = (recordDef name attrs c).bare T := by
  unfold recordDef
  dsimp only
  rw [lastID_bare, show (c.bare T).currentDef = c.currentDef.map Definition.bare from rfl]
  cases hcd : c.currentDef with
  | nil => simp only [Cursor.bare, hcd, List.map_nil, List.nil_append, List.map_cons]; rfl
  | cons d ds =>
    rw [List.map_cons]
    dsimp only
    split
    · simp only [Cursor.bare, Svg.bare, hcd, List.nil_append, List.map_cons, List.map_nil, insert_bareDefs]; rfl
    · simp only [Cursor.bare, hcd, List.map_append, List.map_cons, List.map_nil]; rfl

theorem emitPath_unread : Unread T (emitPath : CM F Unit) := by
  intro c
  obtain ⟨pc, svg, ss, gr, it, id, ig, df, im, cd, mk⟩ := c
  obtain ⟨path, x, y, cx, cy, kx, ky, sx, sy, ps, lk, em, ip, lg⟩ := pc
  cases path <;> cases im <;> cases mk <;> cases ss <;> rfl

theorem readStart_likewise (fuel : Nat) (name : Str) (attrs : List Attr) :
    Likewise T (readStartElement fuel name attrs : CM F Unit) (readStartElement fuel name (bareAttrs name attrs)) := by
  intro c
  unfold readStartElement
  dsimp only
  rw [show (c.bare T).inDefs = c.inDefs from rfl, show (c.bare T).inGrad = c.inGrad from rfl]
  split
  · rw [recordDef_bare]
  · cases hd : drawFuncs (F := F) fuel (useF fuel) name with
    | none => exact handleError_unread _ c
    | some df =>
      have hdf : df (bareAttrs name attrs) (c.bare T) = ((df attrs c).1, (df attrs c).2.bare T) := by
        by_cases hu : name = "use".toList
        · subst hu; rw [drawFuncs_use] at hd; cases hd; rw [useF_bare]; exact useF_unread fuel attrs c
        · rw [drawFuncs_bare hd hu]; exact drawFuncs_unread hd hu attrs c
      dsimp only
      rw [hdf]
      rcases df attrs c with ⟨r, c1⟩
      have he := emitPath_unread (T := T) c1
      cases r with
      | panic s => rfl
      | diverge => rfl
      | ok u =>
        dsimp only
        rw [he]
        rcases emitPath c1 with ⟨s, c2⟩
        cases s <;> rfl
      | err u =>
        dsimp only
        rw [he]
        rcases emitPath c1 with ⟨s, c2⟩
        cases s <;> rfl

theorem readEnd_unread (name : Str) : Unread T (readEndElement name : CM F Unit) := by
  unfold readEndElement
  refine unread_bind popStyle_unread fun _ => unread_modify fun c => ?_
  by_cases h1 : name = "g".toList
  · rw [if_pos h1, if_pos h1, show (c.bare T).inDefs = c.inDefs from rfl]
    split
    · simp only [Cursor.bare, List.map_append, List.map_cons, List.map_nil]; rfl
    · rfl
  rw [if_neg h1, if_neg h1]
  by_cases h1 : name = "mask".toList
  · rw [if_pos h1, if_pos h1, show (c.bare T).mask = c.mask from rfl]
    split <;> rfl
  rw [if_neg h1, if_neg h1]
  by_cases h1 : name = "title".toList
  · rw [if_pos h1, if_pos h1]; rfl
  rw [if_neg h1, if_neg h1]
  by_cases h1 : name = "desc".toList
  · rw [if_pos h1, if_pos h1]; rfl
  rw [if_neg h1, if_neg h1]
  by_cases h1 : name = "defs".toList
  · rw [if_pos h1, if_pos h1, show (c.bare T).currentDef = c.currentDef.map Definition.bare from rfl]
    cases hcd : c.currentDef with
    | nil => simp only [Cursor.bare, hcd, List.map_nil]
    | cons d ds =>
      rw [List.map_cons]
      simp only [Cursor.bare, Svg.bare, List.map_cons, List.map_nil, insert_bareDefs]; rfl
  rw [if_neg h1, if_neg h1]
  split <;> rfl

end GoSvg
