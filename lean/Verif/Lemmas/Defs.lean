import Verif.Lemmas.Walk

/-! What holds of all recorded elements, and `use` of such. -/

set_option linter.unusedSectionVars false

namespace GoSvg

open Spec

variable {F : Type} [GoFloat F] [GoEnv]

open SM (get modify throw lift panic diverge forEach)

/-- Every recorded element has `Q`. -/
structure DefsQ (Q : Definition → Prop) (c : Cursor F) : Prop where
  defs : ∀ id ds, c.svg.defs.find id = some ds → ∀ d ∈ ds, Q d
  current : ∀ d ∈ c.currentDef, Q d

theorem defsQ_init (Q : Definition → Prop) (m : ErrorMode) : DefsQ Q (initCursor (F := F) m) :=
  ⟨fun _ _ h => (nomatch h), fun _ h => (nomatch h)⟩

theorem defsQ_elem {Q : Definition → Prop} {c d : Cursor F} (h : ElemR c d) (hc : DefsQ Q c) : DefsQ Q d :=
  ⟨by rw [h.defs]; exact hc.defs, by rw [h.currentDef]; exact hc.current⟩

theorem defsQ_insert {Q : Definition → Prop} {c : Cursor F} (hc : DefsQ Q c) (k : Str) {id : Str} {ds : List Definition}
    (h : (c.svg.defs.insert k c.currentDef).find id = some ds) : ∀ d ∈ ds, Q d := by
  rcases find_insert_some h with rfl | h
  · exact hc.current
  · exact hc.defs id ds h

theorem recordDef_defsQ {Q : Definition → Prop} {name : Str} {attrs : List Attr} (ha : Q ⟨lastID attrs, name, attrs⟩) {c : Cursor F}
    (hc : DefsQ Q c) : DefsQ Q (recordDef name attrs c) := by
  unfold recordDef
  dsimp only
  have key : ∀ c : Cursor F, DefsQ Q c → DefsQ Q { c with currentDef := c.currentDef ++ [⟨lastID attrs, name, attrs⟩] } := by
    intro c hc
    refine ⟨hc.defs, fun d hd => ?_⟩
    rcases List.mem_append.1 hd with hd | hd
    · exact hc.current d hd
    · simp only [List.mem_singleton] at hd; rw [hd]; exact ha
  split
  · rename_i d0 tl hcd
    split
    · refine key _ ⟨fun id ds h => ?_, fun _ h => (nomatch h)⟩
      exact defsQ_insert hc _ h
    · exact key c hc
  · exact key c hc

theorem emit_defsQ {Q : Definition → Prop} {c c' : Cursor F} (h : Emit c c') (hc : DefsQ Q c) : DefsQ Q c' := by
  cases h <;> exact ⟨hc.defs, hc.current⟩

theorem readEnd_defsQ {Q : Definition → Prop} (hQ : Q ⟨[], "endg".toList, []⟩) (name : Str) {c : Cursor F} (hc : DefsQ Q c) :
    DefsQ Q (readEndElement name c).2 := by
  unfold readEndElement
  rw [SM.bind_run]
  unfold popStyle
  cases hs : c.styleStack with
  | nil => exact hc
  | cons st rest =>
    dsimp only
    rw [SM.modify_run]
    dsimp only
    split
    · split
      · refine ⟨hc.defs, fun d hd => ?_⟩
        rcases List.mem_append.1 hd with hd | hd
        · exact hc.current d hd
        · simp only [List.mem_singleton] at hd; rw [hd]; exact hQ
      · exact ⟨hc.defs, hc.current⟩
    · split
      · split <;> exact ⟨hc.defs, hc.current⟩
      · split
        · exact ⟨hc.defs, hc.current⟩
        · split
          · exact ⟨hc.defs, hc.current⟩
          · split
            · split
              · exact ⟨fun id ds h => defsQ_insert hc _ h, fun _ h => (nomatch h)⟩
              · exact ⟨hc.defs, hc.current⟩
            · split <;> exact ⟨hc.defs, hc.current⟩

/-- A token whose element has `Q`. -/
def TokQ (Q : Definition → Prop) : Token → Prop
  | .start name attrs => Q ⟨lastID attrs, name, attrs⟩
  | _ => True

theorem readToken_defsQ {Q : Definition → Prop} (hQ : Q ⟨[], "endg".toList, []⟩) (fuel : Nat) {t : Token} (ht : TokQ Q t) {c : Cursor F}
    (hc : DefsQ Q c) : DefsQ Q (readToken fuel t c).2 := by
  cases t with
  | start name attrs =>
    rw [readToken, SM.bind_run]
    have hp := defsQ_elem (pushStyle_elem attrs c) hc
    rcases hr : pushStyle attrs c with ⟨r, d⟩
    rw [hr] at hp
    dsimp only at hp
    cases r with
    | ok u =>
      dsimp only
      rcases readStartElement_cases fuel name attrs d with ⟨-, -, -, -, h⟩ | ⟨-, ⟨-, h⟩ | ⟨df, hd, ⟨-, h⟩ | ⟨-, c', hE, h⟩ | ⟨-, -, h⟩⟩⟩
      · rw [h]; exact recordDef_defsQ ht hp
      · rw [h]; exact defsQ_elem (handleError_elem _ d) hp
      · rw [h]; exact defsQ_elem (drawFuncs_elem hd attrs d) hp
      · rw [h]; exact emit_defsQ hE (defsQ_elem (drawFuncs_elem hd attrs d) hp)
      · rw [h]; exact defsQ_elem (drawFuncs_elem hd attrs d) hp
    | err e => exact hp
    | panic s => exact hp
    | diverge => exact hp
  | stop name => exact readEnd_defsQ hQ name hc
  | chars s =>
    rw [readToken]
    rw [(readChars_keeps s c).eq]
    exact ⟨hc.defs, hc.current⟩
  | other => exact hc

/-! ### `use` -/

/-- A relation kept by the parts `use` is made of, the elements restricted to those with `Q`. -/
structure UsePreQ (Q : Str → Prop) (R : Cursor F → Cursor F → Prop) : Prop extends Pre R where
  push : ∀ attrs, Keeps R (pushStyle attrs)
  pop : Keeps R popStyle
  error : ∀ m, Keeps R (handleError m)
  plain : ∀ {fuel : Nat} {use : List Attr → CM F Unit} {tag : Str} {df : List Attr → CM F Unit}, drawFuncs fuel use tag = some df →
    tag ≠ "use".toList → Q tag → ∀ attrs, Keeps R (df attrs)
  offset : ∀ (c : Cursor F) x y, R c { c with pc := { c.pc with curX := x, curY := y } }

/-- The relation together with what `use` keeps anyway. -/
def WithElem (R : Cursor F → Cursor F → Prop) (c c' : Cursor F) : Prop := R c c' ∧ ElemR c c'

theorem withElem_pre {R : Cursor F → Cursor F → Prop} (h : Pre R) : Pre (WithElem R) :=
  ⟨fun c => ⟨h.refl c, elemR_pre.refl c⟩, fun h1 h2 => ⟨h.trans h1.1 h2.1, elemR_pre.trans h1.2 h2.2⟩⟩

theorem keeps_with {α : Type} {R S : Cursor F → Cursor F → Prop} {m : CM F α} (h1 : Keeps R m) (h2 : Keeps S m) :
    Keeps (fun c c' => R c c' ∧ S c c') m := fun c => ⟨h1 c, h2 c⟩

theorem useLoop_keepsQ {Q : Str → Prop} {R : Cursor F → Cursor F → Prop} (h : UsePreQ Q R)
    {draw : Str → Option (List Attr → CM F Unit)} {I : Cursor F → Prop}
    (hI : ∀ c c', ElemR c c' → I c → I c')
    (hd : ∀ tag df, draw tag = some df → Q tag → ∀ attrs c, I c → WithElem R c (df attrs c).2) :
    ∀ (ds : List Definition), (∀ d ∈ ds, d.tag = "endg".toList ∨ Q d.tag) → ∀ c, I c → WithElem R c (useLoop draw ds c).2
  | [], _, c, _ => (withElem_pre h.toPre).refl c
  | d :: ds, hq, c, hc => by
    have hp := withElem_pre h.toPre
    have ih := useLoop_keepsQ h hI hd ds fun d hm => hq d (List.mem_cons_of_mem _ hm)
    have hpop : ∀ c, I c → WithElem R c ((do popStyle; useLoop draw ds : CM F Unit) c).2 := by
      intro c hc
      rw [SM.bind_run]
      have h1 : WithElem R c (popStyle c).2 := ⟨h.pop c, popStyle_elem c⟩
      rcases hr : popStyle c with ⟨r, c1⟩
      rw [hr] at h1
      cases r with
      | ok u => exact hp.trans h1 (ih c1 (hI _ _ h1.2 hc))
      | err e => exact h1
      | panic s => exact h1
      | diverge => exact h1
    rw [useLoop]
    by_cases he : d.tag = "endg".toList
    · rw [if_pos he]; exact hpop c hc
    · rw [if_neg he, SM.bind_run]
      have h1 : WithElem R c (pushStyle d.attrs c).2 := ⟨h.push _ c, pushStyle_elem _ c⟩
      rcases hr : pushStyle d.attrs c with ⟨r, c1⟩
      rw [hr] at h1
      cases r with
      | ok u =>
        refine hp.trans h1 ?_
        have hc1 := hI _ _ h1.2 hc
        dsimp only at hc1 ⊢
        cases hdr : draw d.tag with
        | none => exact ⟨h.error _ c1, handleError_elem _ c1⟩
        | some df =>
          dsimp only
          rw [SM.bind_run]
          have h2 := hd _ _ hdr ((hq d List.mem_cons_self).resolve_left he) d.attrs c1 hc1
          rcases hr2 : df d.attrs c1 with ⟨r2, c2⟩
          rw [hr2] at h2
          cases r2 with
          | ok u =>
            refine hp.trans h2 ?_
            have hc2 := hI _ _ h2.2 hc1
            dsimp only at hc2 ⊢
            split
            · exact hpop c2 hc2
            · exact ih c2 hc2
          | err e => exact h2
          | panic s => exact h2
          | diverge => exact h2
      | err e => exact h1
      | panic s => exact h1
      | diverge => exact h1

theorem useF_keepsQ {Q : Str → Prop} {R : Cursor F → Cursor F → Prop} (h : UsePreQ Q R) :
    ∀ (fuel : Nat) (attrs : List Attr) (c : Cursor F), (∀ id ds, c.svg.defs.find id = some ds → ∀ d ∈ ds, d.tag = "endg".toList ∨ Q d.tag) →
      WithElem R c (useF fuel attrs c).2
  | 0, _, c, _ => (withElem_pre h.toPre).refl c
  | fuel + 1, attrs, c, hc => by
    have hp := withElem_pre h.toPre
    rw [useF, SM.bind_run, SM.get_run]
    dsimp only
    rw [SM.bind_run, SM.lift_run]
    cases hr : Res.loop (useAttr c.svg.viewBox) ⟨[], num 0, num 0⟩ attrs with
    | err e => exact hp.refl c
    | panic s => exact hp.refl c
    | diverge => exact hp.refl c
    | ok v =>
      dsimp only
      unfold withOffset
      have ho : WithElem R c { c with pc := { c.pc with curX := v.x, curY := v.y } } := ⟨h.offset c _ _, elemR_use.offset c _ _⟩
      have hb : WithElem R { c with pc := { c.pc with curX := v.x, curY := v.y } }
          (useBody (drawFuncs fuel (useF fuel)) v.href { c with pc := { c.pc with curX := v.x, curY := v.y } }).2 := by
        have hc' : ∀ id ds, ({ c with pc := { c.pc with curX := v.x, curY := v.y } } : Cursor F).svg.defs.find id = some ds →
          ∀ d ∈ ds, d.tag = "endg".toList ∨ Q d.tag := hc
        generalize ({ c with pc := { c.pc with curX := v.x, curY := v.y } } : Cursor F) = c1 at hc'
        unfold useBody
        by_cases hn : v.href = []
        · rw [if_pos hn]; exact hp.refl c1
        · rw [if_neg hn]
          split
          · rename_i id _
            dsimp only
            rw [SM.bind_run, SM.get_run]
            dsimp only
            cases hf : c1.svg.defs.find id with
            | none => exact hp.refl c1
            | some ds =>
              refine useLoop_keepsQ h (I := fun c => ∀ id ds, c.svg.defs.find id = some ds → ∀ d ∈ ds, d.tag = "endg".toList ∨ Q d.tag)
                (fun a b hab ha => by rw [hab.defs]; exact ha) ?_ ds (hc' id ds hf) c1 hc'
              intro tag df hdr hq attrs c hc
              by_cases ht : tag = "use".toList
              · subst ht; rw [drawFuncs_use] at hdr; cases hdr; exact useF_keepsQ h fuel attrs c hc
              · exact ⟨h.plain hdr ht hq attrs c, drawFuncs_elem hdr attrs c⟩
          · exact hp.refl c1
      rcases hr2 : useBody (drawFuncs fuel (useF fuel)) v.href { c with pc := { c.pc with curX := v.x, curY := v.y } } with ⟨r2, c2⟩
      rw [hr2] at hb
      exact hp.trans ho (hp.trans hb ⟨h.offset c2 _ _, elemR_use.offset c2 _ _⟩)

/-! ### The view box -/

def BoxR (c c' : Cursor F) : Prop := c'.svg.viewBox = c.svg.viewBox

theorem boxR_pre : Pre (BoxR (F := F)) := ⟨fun _ => rfl, fun h1 h2 => h2.trans h1⟩

theorem styleR_box {c c' : Cursor F} (h : StyleR c c') : BoxR c c' := by rw [BoxR, h.eq]

theorem pushStyle_box (attrs : List Attr) : Keeps BoxR (pushStyle attrs : CM F Unit) := by
  intro c
  rcases pushStyle_frame attrs c with ⟨top, rest, st, c1, -, -, h, h'⟩ | ⟨-, h⟩
  · rw [h']; exact (styleR_box h : c1.svg.viewBox = c.svg.viewBox)
  · exact styleR_box h

/-- Only `svg` sets the view box. -/
theorem draw_box {fuel : Nat} {use : List Attr → CM F Unit} {tag : Str} {df : List Attr → CM F Unit}
    (h : drawFuncs fuel use tag = some df) (ht : tag ≠ "svg".toList) (hu : tag ≠ "use".toList) (attrs : List Attr) :
    Keeps BoxR (df attrs) := by
  rcases drawFuncs_cases h with ⟨-, h⟩ | ⟨h, -⟩ | ⟨-, rfl⟩ | ⟨-, rfl⟩ | ⟨-, rfl⟩ | ⟨-, rfl⟩ | ⟨-, rfl⟩ | ⟨-, rfl⟩ | ⟨-, rfl⟩ |
    ⟨-, rfl⟩ | ⟨h, -⟩
  · intro c; have := (h attrs c).eq; rw [BoxR, this]
  · exact absurd h ht
  · exact keeps_pure boxR_pre _
  · intro c; have := (stopF_keeps attrs c).eq; rw [BoxR, this]
  · exact keeps_modify fun _ => rfl
  · exact keeps_modify fun _ => rfl
  · exact keeps_modify fun _ => rfl
  · intro c; have := (linearGradientF_keeps attrs c).eq; rw [BoxR, this]
  · intro c; have := (radialGradientF_keeps attrs c).eq; rw [BoxR, this]
  · unfold maskF
    exact keeps_bind boxR_pre (keeps_get boxR_pre) fun _ => keeps_bind boxR_pre (keeps_lift boxR_pre _) fun _ =>
      keeps_modify fun _ => rfl
  · exact absurd h hu

theorem box_use : UsePreQ (· ≠ "svg".toList) (BoxR (F := F)) where
  toPre := boxR_pre
  push := pushStyle_box
  pop := by intro c; unfold popStyle; split <;> rfl
  error m c := styleR_box (handleError_styleR m c)
  plain h hu hq attrs := draw_box h hq hu attrs
  offset _ _ _ := rfl

/-- No element recorded in `defs` is an `svg`. -/
abbrev NoSvgDef (d : Definition) : Prop := d.tag ≠ "svg".toList

theorem readToken_box (fuel : Nat) {t : Token} (ht : TokQ NoSvgDef t) {c : Cursor F} (hc : DefsQ NoSvgDef c) :
    BoxR c (readToken fuel t c).2 := by
  cases t with
  | start name attrs =>
    rw [readToken, SM.bind_run]
    have hp := defsQ_elem (pushStyle_elem attrs c) hc
    have hbx := pushStyle_box attrs c
    rcases hr : pushStyle attrs c with ⟨r, d⟩
    rw [hr] at hp hbx
    dsimp only at hp hbx
    cases r with
    | ok u =>
      dsimp only
      refine boxR_pre.trans hbx ?_
      have hdf : ∀ df, drawFuncs fuel (useF fuel) name = some df → BoxR d (df attrs d).2 := by
        intro df hd
        by_cases hu : name = "use".toList
        · subst hu; rw [drawFuncs_use] at hd; cases hd
          exact (useF_keepsQ box_use fuel attrs d fun id ds h e he => .inr (hp.defs id ds h e he)).1
        · exact draw_box hd ht hu attrs d
      rcases readStartElement_cases fuel name attrs d with ⟨-, -, -, -, h⟩ | ⟨-, ⟨-, h⟩ | ⟨df, hd, ⟨-, h⟩ | ⟨-, c', hE, h⟩ | ⟨-, -, h⟩⟩⟩
      · rw [h, recordDef_eq]; exact rfl
      · rw [h]; exact styleR_box (handleError_styleR _ d)
      · rw [h]; exact hdf df hd
      · rw [h]
        refine boxR_pre.trans (hdf df hd) ?_
        cases hE <;> rfl
      · rw [h]; exact hdf df hd
    | err e => exact hbx
    | panic s => exact hbx
    | diverge => exact hbx
  | stop name =>
    rw [readToken]
    rcases readEnd_cases name c with ⟨-, h⟩ | ⟨c', -, h, hE⟩
    · rw [h]; exact rfl
    · rw [h]; show c'.svg.viewBox = _; rw [hE.eq]
  | chars s =>
    rw [readToken]
    rw [BoxR, (readChars_keeps s c).eq]
  | other => rfl

end GoSvg
