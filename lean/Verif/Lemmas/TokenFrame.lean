import Verif.Lemmas.Elements

/-! What every element, `use` included, and every token leaves alone. -/

set_option linter.unusedSectionVars false

namespace GoSvg

variable {F : Type} [GoFloat F] [GoEnv]

open SM (get modify throw lift panic diverge forEach)

/-- The elements that draw. -/
def shapeTags : List Str :=
  ["line".toList, "rect".toList, "circle".toList, "ellipse".toList, "polyline".toList, "polygon".toList, "path".toList]

/-- The table of element functions by kind. -/
theorem drawFuncs_cases {fuel : Nat} {use : List Attr → CM F Unit} {tag : Str} {df : List Attr → CM F Unit}
    (h : drawFuncs fuel use tag = some df) :
    (tag ∈ shapeTags ∧ ∀ attrs, Keeps DrawR (df attrs)) ∨ (tag = "svg".toList ∧ df = svgF) ∨ (tag = "g".toList ∧ df = gF) ∨
    (tag = "stop".toList ∧ df = stopF) ∨ (tag = "desc".toList ∧ df = descF) ∨ (tag = "title".toList ∧ df = titleF) ∨
    (tag = "defs".toList ∧ df = defsF) ∨ (tag = "linearGradient".toList ∧ df = linearGradientF) ∨
    (tag = "radialGradient".toList ∧ df = radialGradientF) ∨ (tag = "mask".toList ∧ df = maskF) ∨
    (tag = "use".toList ∧ df = use) := by
  unfold drawFuncs at h
  by_cases h1 : tag = "svg".toList
  · rw [if_pos h1] at h; cases h; exact .inr (.inl ⟨h1, rfl⟩)
  rw [if_neg h1] at h
  by_cases h1 : tag = "g".toList
  · rw [if_pos h1] at h; cases h; exact .inr (.inr (.inl ⟨h1, rfl⟩))
  rw [if_neg h1] at h
  by_cases h1 : tag = "line".toList
  · rw [if_pos h1] at h; cases h; subst h1; exact .inl ⟨by decide, lineF_keeps⟩
  rw [if_neg h1] at h
  by_cases h1 : tag = "stop".toList
  · rw [if_pos h1] at h; cases h; exact .inr (.inr (.inr (.inl ⟨h1, rfl⟩)))
  rw [if_neg h1] at h
  by_cases h1 : tag = "rect".toList
  · rw [if_pos h1] at h; cases h; subst h1; exact .inl ⟨by decide, rectF_keeps fuel⟩
  rw [if_neg h1] at h
  by_cases h1 : tag = "circle".toList
  · rw [if_pos h1] at h; cases h; subst h1; exact .inl ⟨by decide, circleF_keeps⟩
  rw [if_neg h1] at h
  by_cases h1 : tag = "ellipse".toList
  · rw [if_pos h1] at h; cases h; subst h1; exact .inl ⟨by decide, circleF_keeps⟩
  rw [if_neg h1] at h
  by_cases h1 : tag = "polyline".toList
  · rw [if_pos h1] at h; cases h; subst h1; exact .inl ⟨by decide, polylineF_keeps⟩
  rw [if_neg h1] at h
  by_cases h1 : tag = "polygon".toList
  · rw [if_pos h1] at h; cases h; subst h1; exact .inl ⟨by decide, polygonF_keeps⟩
  rw [if_neg h1] at h
  by_cases h1 : tag = "path".toList
  · rw [if_pos h1] at h; cases h; subst h1; exact .inl ⟨by decide, pathF_keeps⟩
  rw [if_neg h1] at h
  by_cases h1 : tag = "desc".toList
  · rw [if_pos h1] at h; cases h; exact .inr (.inr (.inr (.inr (.inl ⟨h1, rfl⟩))))
  rw [if_neg h1] at h
  by_cases h1 : tag = "defs".toList
  · rw [if_pos h1] at h; cases h; exact .inr (.inr (.inr (.inr (.inr (.inr (.inl ⟨h1, rfl⟩))))))
  rw [if_neg h1] at h
  by_cases h1 : tag = "title".toList
  · rw [if_pos h1] at h; cases h; exact .inr (.inr (.inr (.inr (.inr (.inl ⟨h1, rfl⟩)))))
  rw [if_neg h1] at h
  by_cases h1 : tag = "linearGradient".toList
  · rw [if_pos h1] at h; cases h; exact .inr (.inr (.inr (.inr (.inr (.inr (.inr (.inl ⟨h1, rfl⟩)))))))
  rw [if_neg h1] at h
  by_cases h1 : tag = "radialGradient".toList
  · rw [if_pos h1] at h; cases h; exact .inr (.inr (.inr (.inr (.inr (.inr (.inr (.inr (.inl ⟨h1, rfl⟩))))))))
  rw [if_neg h1] at h
  by_cases h1 : tag = "mask".toList
  · rw [if_pos h1] at h; cases h; exact .inr (.inr (.inr (.inr (.inr (.inr (.inr (.inr (.inr (.inl ⟨h1, rfl⟩)))))))))
  rw [if_neg h1] at h
  by_cases h1 : tag = "use".toList
  · rw [if_pos h1] at h; cases h; exact .inr (.inr (.inr (.inr (.inr (.inr (.inr (.inr (.inr (.inr ⟨h1, rfl⟩)))))))))
  rw [if_neg h1] at h
  cases h

theorem drawFuncs_use (fuel : Nat) (use : List Attr → CM F Unit) : drawFuncs fuel use "use".toList = some use := rfl

/-- Texts: empty ones are added at the end; collecting is switched on exactly when one is added. -/
def TextR (t t' : List Str) (b b' : Bool) : Prop := ∃ n, t' = t ++ List.replicate n [] ∧ b' = (b || decide (0 < n))

theorem textR_refl (t : List Str) (b : Bool) : TextR t t b b := ⟨0, by simp, by simp⟩

theorem textR_trans {t t' t'' : List Str} {b b' b'' : Bool} (h1 : TextR t t' b b') (h2 : TextR t' t'' b' b'') :
    TextR t t'' b b'' := by
  obtain ⟨n, rfl, rfl⟩ := h1
  obtain ⟨m, rfl, rfl⟩ := h2
  refine ⟨n + m, by rw [List.append_assoc, List.replicate_append_replicate], ?_⟩
  cases b with
  | true => rfl
  | false =>
    rw [Bool.false_or, Bool.false_or, ← Bool.decide_or]
    congr 1
    exact propext (by omega)

/-- What running an element function, `use` included, leaves alone: the collected paths, the masks, the definitions and the
mode. -/
structure ElemR (c c' : Cursor F) : Prop where
  svgPaths : c'.svg.svgPaths = c.svg.svgPaths
  svgMasks : c'.svg.svgMasks = c.svg.svgMasks
  defs : c'.svg.defs = c.svg.defs
  transform : c'.svg.transform = c.svg.transform
  currentDef : c'.currentDef = c.currentDef
  mode : c'.pc.errorMode = c.pc.errorMode
  log : LogR c.pc.errorMode c.pc.log c'.pc.log
  titles : TextR c.svg.titles c'.svg.titles c.inTitleText c'.inTitleText
  descs : TextR c.svg.descriptions c'.svg.descriptions c.inDescText c'.inDescText

theorem elemR_pre : Pre (ElemR (F := F)) where
  refl _ := ⟨rfl, rfl, rfl, rfl, rfl, rfl, logR_refl _ _, textR_refl _ _, textR_refl _ _⟩
  trans h1 h2 := ⟨h2.1.trans h1.1, h2.2.trans h1.2, h2.3.trans h1.3, h2.4.trans h1.4, h2.5.trans h1.5, h2.6.trans h1.6,
    logR_trans h1.7 (h1.6 ▸ h2.7), textR_trans h1.8 h2.8, textR_trans h1.9 h2.9⟩

/-- What every element function but `use` leaves alone besides. -/
structure PlainR (c c' : Cursor F) : Prop extends ElemR c c' where
  styleStack : c'.styleStack = c.styleStack
  arrays : c'.svg.arrays = c.svg.arrays
  curX : c'.pc.curX = c.pc.curX
  curY : c'.pc.curY = c.pc.curY

theorem drawR_plain {c c' : Cursor F} (h : DrawR c c') : PlainR c c' := by
  obtain ⟨h, h2, h3, h4, h5⟩ := h
  refine ⟨⟨?_, ?_, ?_, ?_, ?_, h4, h5, ?_, ?_⟩, ?_, ?_, h2, h3⟩ <;> rw [h] <;> try exact textR_refl _ _

theorem svgR_plain {c c' : Cursor F} (h : SvgR c c') : PlainR c c' := by
  obtain ⟨h⟩ := h
  refine ⟨⟨?_, ?_, ?_, ?_, ?_, ?_, ?_, ?_, ?_⟩, ?_, ?_, ?_, ?_⟩ <;> rw [h] <;>
    first | exact textR_refl _ _ | exact logR_refl _ _

theorem gradR_plain {c c' : Cursor F} (h : GradR c c') : PlainR c c' := by
  obtain ⟨h, -⟩ := h
  refine ⟨⟨?_, ?_, ?_, ?_, ?_, ?_, ?_, ?_, ?_⟩, ?_, ?_, ?_, ?_⟩ <;> rw [h] <;>
    first | exact textR_refl _ _ | exact logR_refl _ _

theorem plainR_refl (c : Cursor F) : PlainR c c := ⟨elemR_pre.refl c, rfl, rfl, rfl, rfl⟩

theorem plainR_trans {c d e : Cursor F} (h1 : PlainR c d) (h2 : PlainR d e) : PlainR c e :=
  ⟨elemR_pre.trans h1.toElemR h2.toElemR, h2.2.trans h1.2, h2.3.trans h1.3, h2.4.trans h1.4, h2.5.trans h1.5⟩

theorem plainR_pre : Pre (PlainR (F := F)) := ⟨plainR_refl, plainR_trans⟩

theorem maskF_plain (attrs : List Attr) : Keeps PlainR (maskF attrs : CM F Unit) := by
  unfold maskF
  exact keeps_bind plainR_pre (keeps_get plainR_pre) fun _ => keeps_bind plainR_pre (keeps_lift plainR_pre _) fun _ =>
    keeps_modify fun c => ⟨⟨rfl, rfl, rfl, rfl, rfl, rfl, logR_refl _ _, textR_refl _ _, textR_refl _ _⟩, rfl, rfl, rfl, rfl⟩

theorem descF_plain (attrs : List Attr) : Keeps PlainR (descF attrs : CM F Unit) :=
  keeps_modify fun _ => ⟨⟨rfl, rfl, rfl, rfl, rfl, rfl, logR_refl _ _, textR_refl _ _, ⟨1, rfl, by simp⟩⟩, rfl, rfl, rfl, rfl⟩

theorem titleF_plain (attrs : List Attr) : Keeps PlainR (titleF attrs : CM F Unit) :=
  keeps_modify fun _ => ⟨⟨rfl, rfl, rfl, rfl, rfl, rfl, logR_refl _ _, ⟨1, rfl, by simp⟩, textR_refl _ _⟩, rfl, rfl, rfl, rfl⟩

theorem defsF_plain (attrs : List Attr) : Keeps PlainR (defsF attrs : CM F Unit) :=
  keeps_modify fun _ => ⟨⟨rfl, rfl, rfl, rfl, rfl, rfl, logR_refl _ _, textR_refl _ _, textR_refl _ _⟩, rfl, rfl, rfl, rfl⟩

theorem gF_plain (attrs : List Attr) : Keeps PlainR (gF attrs : CM F Unit) := keeps_pure plainR_pre _

/-- Every element function but `use`. -/
theorem drawFuncs_plain {fuel : Nat} {use : List Attr → CM F Unit} {tag : Str} {df : List Attr → CM F Unit}
    (h : drawFuncs fuel use tag = some df) (ht : tag ≠ "use".toList) (attrs : List Attr) : Keeps PlainR (df attrs) := by
  rcases drawFuncs_cases h with ⟨-, h⟩ | ⟨-, rfl⟩ | ⟨-, rfl⟩ | ⟨-, rfl⟩ | ⟨-, rfl⟩ | ⟨-, rfl⟩ | ⟨-, rfl⟩ | ⟨-, rfl⟩ | ⟨-, rfl⟩ |
    ⟨-, rfl⟩ | ⟨h, -⟩
  · exact keeps_mono (h attrs) fun _ _ => drawR_plain
  · exact keeps_mono (svgF_keeps attrs) fun _ _ => svgR_plain
  · exact gF_plain attrs
  · exact keeps_mono (stopF_keeps attrs) fun _ _ => gradR_plain
  · exact descF_plain attrs
  · exact titleF_plain attrs
  · exact defsF_plain attrs
  · exact keeps_mono (linearGradientF_keeps attrs) fun _ _ => gradR_plain
  · exact keeps_mono (radialGradientF_keeps attrs) fun _ _ => gradR_plain
  · exact maskF_plain attrs
  · exact absurd h ht

theorem styleR_elem {c c' : Cursor F} (h : StyleR c c') : ElemR c c' := by
  obtain ⟨h, h2⟩ := h
  refine ⟨?_, ?_, ?_, ?_, ?_, ?_, h2, ?_, ?_⟩ <;> rw [h] <;> try exact textR_refl _ _

theorem pushStyle_elem (attrs : List Attr) : Keeps ElemR (pushStyle attrs : CM F Unit) := by
  intro c
  rcases pushStyle_frame attrs c with ⟨top, rest, st, c1, -, -, h, h'⟩ | ⟨-, h⟩
  · rw [h']
    exact elemR_pre.trans (styleR_elem h) ⟨rfl, rfl, rfl, rfl, rfl, rfl, logR_refl _ _, textR_refl _ _, textR_refl _ _⟩
  · exact styleR_elem h

theorem popStyle_elem : Keeps ElemR (popStyle : CM F Unit) := by
  intro c
  unfold popStyle
  split
  · exact elemR_pre.refl c
  · exact ⟨rfl, rfl, rfl, rfl, rfl, rfl, logR_refl _ _, textR_refl _ _, textR_refl _ _⟩

theorem handleError_elem (m : Msg) : Keeps ElemR (handleError m : CM F Unit) := fun c => styleR_elem (handleError_styleR m c)

/-! ### `use`: any relation its parts keep -/

/-- A relation kept by the parts `use` is made of. -/
structure UsePre (R : Cursor F → Cursor F → Prop) : Prop extends Pre R where
  push : ∀ attrs, Keeps R (pushStyle attrs)
  pop : Keeps R popStyle
  error : ∀ m, Keeps R (handleError m)
  plain : ∀ c d, PlainR c d → R c d
  offset : ∀ (c : Cursor F) x y, R c { c with pc := { c.pc with curX := x, curY := y } }

theorem useLoop_keeps {R : Cursor F → Cursor F → Prop} (h : UsePre R) {draw : Str → Option (List Attr → CM F Unit)}
    (hd : ∀ tag df, draw tag = some df → ∀ attrs, Keeps R (df attrs)) : ∀ ds, Keeps R (useLoop draw ds)
  | [] => keeps_pure h.toPre _
  | d :: ds => by
    rw [useLoop]
    refine keeps_ite (keeps_bind h.toPre h.pop fun _ => useLoop_keeps h hd ds) ?_
    refine keeps_bind h.toPre (h.push _) fun _ => ?_
    cases hdr : draw d.tag with
    | none => exact h.error _
    | some df =>
      refine keeps_bind h.toPre (hd _ _ hdr _) fun _ => ?_
      exact keeps_ite (keeps_bind h.toPre h.pop fun _ => useLoop_keeps h hd ds) (useLoop_keeps h hd ds)

theorem useBody_keeps {R : Cursor F → Cursor F → Prop} (h : UsePre R) {draw : Str → Option (List Attr → CM F Unit)}
    (hd : ∀ tag df, draw tag = some df → ∀ attrs, Keeps R (df attrs)) (href : Str) : Keeps R (useBody draw href) := by
  unfold useBody
  have h' : Keeps R (match href with
      | '#' :: id => do
        let c ← get
        match c.svg.defs.find id with
        | none => throw .useNotFound
        | some defs => useLoop draw defs
      | _ => throw .useNotID : CM F Unit) := by
    split
    · refine keeps_bind h.toPre (keeps_get h.toPre) fun c => ?_
      split
      · exact keeps_throw h.toPre _
      · exact useLoop_keeps h hd _
    · exact keeps_throw h.toPre _
  exact keeps_ite (keeps_bind h.toPre (keeps_throw h.toPre _) fun _ => h') h'

theorem withOffset_keeps {R : Cursor F → Cursor F → Prop} (h : UsePre R) (x y : F) {body : CM F Unit} (hb : Keeps R body) :
    Keeps R (withOffset x y body) := by
  intro c
  have hb := hb { c with pc := { c.pc with curX := x, curY := y } }
  unfold withOffset
  rcases hr : body { c with pc := { c.pc with curX := x, curY := y } } with ⟨r, d⟩
  rw [hr] at hb
  exact h.trans (h.trans (h.offset c x y) hb) (h.offset d _ _)

theorem useF_keeps {R : Cursor F → Cursor F → Prop} (h : UsePre R) :
    ∀ (fuel : Nat) (attrs : List Attr), Keeps R (useF fuel attrs : CM F Unit)
  | 0, _ => keeps_diverge h.toPre
  | fuel + 1, attrs => by
    rw [useF]
    refine keeps_bind h.toPre (keeps_get h.toPre) fun c => keeps_bind h.toPre (keeps_lift h.toPre _) fun v =>
      withOffset_keeps h _ _ (useBody_keeps h ?_ _)
    intro tag df hd attrs
    by_cases ht : tag = "use".toList
    · subst ht; rw [drawFuncs_use] at hd; cases hd; exact useF_keeps h fuel attrs
    · exact keeps_mono (drawFuncs_plain hd ht attrs) h.plain

/-- Every element function. -/
theorem drawFuncs_keeps {R : Cursor F → Cursor F → Prop} (h : UsePre R) {fuel : Nat} {tag : Str} {df : List Attr → CM F Unit}
    (hd : drawFuncs fuel (useF fuel) tag = some df) (attrs : List Attr) : Keeps R (df attrs) := by
  by_cases ht : tag = "use".toList
  · subst ht; rw [drawFuncs_use] at hd; cases hd; exact useF_keeps h fuel attrs
  · exact keeps_mono (drawFuncs_plain hd ht attrs) h.plain

theorem elemR_use : UsePre (ElemR (F := F)) where
  toPre := elemR_pre
  push := pushStyle_elem
  pop := popStyle_elem
  error := handleError_elem
  plain _ _ h := h.toElemR
  offset _ _ _ := ⟨rfl, rfl, rfl, rfl, rfl, rfl, logR_refl _ _, textR_refl _ _, textR_refl _ _⟩

theorem drawFuncs_elem {fuel : Nat} {tag : Str} {df : List Attr → CM F Unit}
    (h : drawFuncs fuel (useF fuel) tag = some df) (attrs : List Attr) : Keeps ElemR (df attrs) :=
  drawFuncs_keeps elemR_use h attrs

/-! ### Storing the path -/

/-- Where the path of an element goes: nowhere if there is none or if it stands in a mask that has been lost, otherwise it is
added, with the current style, to the mask being read or to the document. -/
inductive Emit (c : Cursor F) : Cursor F → Prop
  | nothing (h : c.pc.path = []) : Emit c c
  | lost (h : c.pc.path ≠ []) (hm : c.inMask = true) (hn : c.mask = none) : Emit c { c with pc := { c.pc with path := [] } }
  | mask (h : c.pc.path ≠ []) (hm : c.inMask = true) (m : SvgMask F) (hn : c.mask = some m) (st : PathStyle F)
      (rest : List (PathStyle F)) (hs : c.styleStack = st :: rest) :
      Emit c { c with pc := { c.pc with path := [] }, mask := some { m with svgPaths := m.svgPaths ++ [⟨c.pc.path, st⟩] } }
  | doc (h : c.pc.path ≠ []) (hm : c.inMask = false) (st : PathStyle F) (rest : List (PathStyle F))
      (hs : c.styleStack = st :: rest) :
      Emit c { c with
        pc := { c.pc with path := [] }, svg := { c.svg with svgPaths := c.svg.svgPaths ++ [⟨c.pc.path, st⟩] } }

theorem emitPath_cases (c : Cursor F) :
    (∃ c', emitPath c = (.ok (), c') ∧ Emit c c') ∨ (emitPath c = (.panic .styleStack, c) ∧ c.styleStack = []) := by
  obtain ⟨pc, svg, ss, gr, it, id, ig, df, im, cd, mk⟩ := c
  obtain ⟨path, x, y, cx, cy, kx, ky, sx, sy, ps, lk, em, ip, lg⟩ := pc
  unfold emitPath
  cases path with
  | nil => exact .inl ⟨_, rfl, .nothing rfl⟩
  | cons op ops =>
    have hne : op :: ops ≠ [] := List.cons_ne_nil _ _
    cases im with
    | false =>
      cases ss with
      | nil => exact .inr ⟨rfl, rfl⟩
      | cons st rest => exact .inl ⟨_, rfl, .doc hne rfl st rest rfl⟩
    | true =>
      cases mk with
      | none => exact .inl ⟨_, rfl, .lost hne rfl rfl⟩
      | some m =>
        cases ss with
        | nil => exact .inr ⟨rfl, rfl⟩
        | cons st rest => exact .inl ⟨_, rfl, .mask hne rfl m rfl st rest rfl⟩

/-- What reading a start tag amounts to after its style has been pushed. -/
theorem readStartElement_cases (fuel : Nat) (name : Str) (attrs : List Attr) (c : Cursor F) :
    (c.inDefs = true ∧ name ≠ "radialGradient".toList ∧ name ≠ "linearGradient".toList ∧ c.inGrad = false ∧
      readStartElement fuel name attrs c = (.ok (), recordDef name attrs c)) ∨
    ((c.inDefs = false ∨ name = "radialGradient".toList ∨ name = "linearGradient".toList ∨ c.inGrad = true) ∧
      ((drawFuncs (F := F) fuel (useF fuel) name = none ∧
        readStartElement fuel name attrs c = handleError (.cannotProcess name) c) ∨
      ∃ df, drawFuncs fuel (useF fuel) name = some df ∧
        ((¬ (df attrs c).1.Tame ∧ readStartElement fuel name attrs c = df attrs c) ∨
         ((df attrs c).1.Tame ∧ (∃ c', Emit (df attrs c).2 c' ∧ readStartElement fuel name attrs c = ((df attrs c).1, c'))) ∨
         ((df attrs c).1.Tame ∧ (df attrs c).2.styleStack = [] ∧
           readStartElement fuel name attrs c = (.panic .styleStack, (df attrs c).2))))) := by
  unfold readStartElement
  dsimp only
  by_cases h : (c.inDefs = true ∧ ¬ (name = "radialGradient".toList ∨ name = "linearGradient".toList ∨ c.inGrad = true))
  · left
    rw [if_pos h]
    obtain ⟨h1, h2⟩ := h
    refine ⟨h1, fun h => h2 (.inl h), fun h => h2 (.inr (.inl h)), ?_, rfl⟩
    cases hg : c.inGrad with
    | false => rfl
    | true => exact absurd (.inr (.inr hg)) h2
  · right
    rw [if_neg h]
    refine ⟨?_, ?_⟩
    · by_cases h1 : c.inDefs = true
      · right
        exact Classical.not_not.1 fun h2 => h ⟨h1, h2⟩
      · exact .inl (by simpa using h1)
    · cases hd : drawFuncs (F := F) fuel (useF fuel) name with
      | none => exact .inl ⟨rfl, rfl⟩
      | some df =>
        refine .inr ⟨df, rfl, ?_⟩
        dsimp only
        rcases hr : df attrs c with ⟨r, d⟩
        rcases emitPath_cases d with ⟨c', he, hE⟩ | ⟨he, hs⟩
        · cases r with
          | ok _ => exact .inr (.inl ⟨trivial, c', hE, by dsimp only; rw [he]⟩)
          | err _ => exact .inr (.inl ⟨trivial, c', hE, by dsimp only; rw [he]⟩)
          | panic _ => exact .inl ⟨id, rfl⟩
          | diverge => exact .inl ⟨id, rfl⟩
        · cases r with
          | ok _ => exact .inr (.inr ⟨trivial, hs, by dsimp only; rw [he]⟩)
          | err _ => exact .inr (.inr ⟨trivial, hs, by dsimp only; rw [he]⟩)
          | panic _ => exact .inl ⟨id, rfl⟩
          | diverge => exact .inl ⟨id, rfl⟩

end GoSvg
