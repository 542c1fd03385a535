import Verif.Lemmas.UseSafe

/-! The style stack and the open elements. -/

set_option linter.unusedSectionVars false

namespace GoSvg

open Spec

variable {F : Type} [GoFloat F] [GoEnv]

open SM (get modify throw lift panic diverge forEach)

/-! ### Texts -/

/-- Text is collected only when there is one to add to. -/
structure TextOK (c : Cursor F) : Prop where
  title : c.inTitleText = true → c.svg.titles ≠ []
  desc : c.inDescText = true → c.svg.descriptions ≠ []

theorem textR_ok {t t' : List Str} {b b' : Bool} (h : TextR t t' b b') (hb : b = true → t ≠ []) : b' = true → t' ≠ [] := by
  obtain ⟨n, rfl, rfl⟩ := h
  intro hb'
  cases b with
  | true => intro he; exact hb rfl (List.append_eq_nil_iff.mp he).1
  | false =>
    have : 0 < n := by simpa using hb'
    intro he
    have := (List.append_eq_nil_iff.mp he).2
    rw [List.replicate_eq_nil_iff] at this
    omega

theorem elemR_text {c c' : Cursor F} (h : ElemR c c') (hc : TextOK c) : TextOK c' :=
  ⟨textR_ok h.titles hc.title, textR_ok h.descs hc.desc⟩

theorem appendLast_some {ts : List Str} (h : ts ≠ []) (s : Str) : ∃ ts', appendLast ts s = some ts' ∧ ts' ≠ [] := by
  induction ts with
  | nil => exact absurd rfl h
  | cons t ts ih =>
    cases ts with
    | nil => exact ⟨_, rfl, by simp⟩
    | cons u ts =>
      obtain ⟨ts', h1, -⟩ := ih (by simp)
      exact ⟨t :: ts', by rw [appendLast, h1]; rfl, by simp⟩

theorem readChars_ok (s : Str) (c : Cursor F) (hc : TextOK c) : (readChars s c).1 = .ok () ∧ TextOK (readChars s c).2 := by
  have key : ∀ (b : Bool) (ts : List Str), (b = true → ts ≠ []) →
      ∃ ts', (if b then appendLast ts s else some ts) = some ts' ∧ (b = true → ts' ≠ []) := by
    intro b ts h
    cases b with
    | false => exact ⟨ts, rfl, fun h => nomatch h⟩
    | true => obtain ⟨ts', h1, h2⟩ := appendLast_some (h rfl) s; exact ⟨ts', h1, fun _ => h2⟩
  obtain ⟨t', h1, h2⟩ := key c.inTitleText c.svg.titles hc.title
  obtain ⟨d', h3, h4⟩ := key c.inDescText c.svg.descriptions hc.desc
  unfold readChars
  rw [h1]
  dsimp only
  rw [h3]
  exact ⟨rfl, h2, h4⟩

/-! ### Any token -/

/-- The state before a token of any document. -/
structure TokInv (B : Site → Prop) (c : Cursor F) : Prop extends AnyInv B c where
  current : ∀ d ∈ c.currentDef, AttrOK B d.attrs
  text : TextOK c

theorem tokInv_rel {B : Site → Prop} {c d : Cursor F} (h : ElemR c d) (hg : KeepsGrad c d) (hc : TokInv B c) : TokInv B d :=
  ⟨anyInv_rel h hg hc.toAnyInv, by rw [h.currentDef]; exact hc.current, elemR_text h hc.text⟩

theorem find_insert_some {α : Type} {m : GoMap α} {k k' : Str} {v w : α} (h : (m.insert k v).find k' = some w) :
    w = v ∨ m.find k' = some w := by
  by_cases hk : k' = k
  · subst hk; rw [find_insert_self] at h; cases h; exact .inl rfl
  · rw [find_insert_ne m hk] at h; exact .inr h

theorem recordDef_attrs {B : Site → Prop} {name : Str} {attrs : List Attr} (ha : AttrOK B attrs) {c : Cursor F} (h1 : DefsAttrs B c)
    (h2 : ∀ d ∈ c.currentDef, AttrOK B d.attrs) :
    DefsAttrs B (recordDef name attrs c) ∧ ∀ d ∈ (recordDef name attrs c).currentDef, AttrOK B d.attrs := by
  unfold recordDef
  dsimp only
  split
  · split
    · refine ⟨fun id ds hf => ?_, fun d hd => ?_⟩
      · rcases find_insert_some hf with rfl | hf
        · exact h2
        · exact h1 id ds hf
      · simp at hd; rw [hd]; exact ha
    · refine ⟨h1, fun d hd => ?_⟩
      rcases List.mem_append.mp hd with hd | hd
      · exact h2 d hd
      · simp at hd; rw [hd]; exact ha
  · refine ⟨h1, fun d hd => ?_⟩
    rcases List.mem_append.mp hd with hd | hd
    · exact h2 d hd
    · simp at hd; rw [hd]; exact ha

theorem recordDef_inv {B : Site → Prop} {name : Str} {attrs : List Attr} (ha : AttrOK B attrs) {c : Cursor F} (hc : TokInv B c) :
    TokInv B (recordDef name attrs c) := by
  obtain ⟨h1, h2⟩ := recordDef_attrs (name := name) ha hc.attrs hc.current
  refine ⟨⟨h1, ?_⟩, h2, ?_⟩
  · rw [recordDef_eq]; exact hc.grad
  · rw [recordDef_eq]; exact ⟨hc.text.title, hc.text.desc⟩

theorem emit_inv {B : Site → Prop} {c c' : Cursor F} (h : Emit c c') (hc : TokInv B c) : TokInv B c' := by
  cases h <;> exact ⟨⟨hc.attrs, hc.grad⟩, hc.current, ⟨hc.text.title, hc.text.desc⟩⟩

theorem readEnd_inv {B : Site → Prop} (name : Str) {c : Cursor F} (hc : TokInv B c) : TokInv B (readEndElement name c).2 := by
  unfold readEndElement
  rw [SM.bind_run]
  unfold popStyle
  split
  · rename_i h; split at h <;> simp only [Prod.mk.injEq, reduceCtorEq, false_and] at h
    obtain ⟨-, rfl⟩ := h
    show TokInv B _
    simp only [SM.modify_run]
    have hd0 : ∀ st, TokInv B { c with styleStack := st } := fun st => ⟨⟨hc.attrs, hc.grad⟩, hc.current, ⟨hc.text.title, hc.text.desc⟩⟩
    split
    · split
      · refine ⟨⟨hc.attrs, hc.grad⟩, fun d hd => ?_, ⟨hc.text.title, hc.text.desc⟩⟩
        rcases List.mem_append.mp hd with hd | hd
        · exact hc.current d hd
        · simp at hd; rw [hd]; exact attrOK_nil B
      · exact hd0 _
    · split
      · split
        · exact ⟨⟨hc.attrs, hc.grad⟩, hc.current, ⟨hc.text.title, hc.text.desc⟩⟩
        · exact ⟨⟨hc.attrs, hc.grad⟩, hc.current, ⟨hc.text.title, hc.text.desc⟩⟩
      · split
        · exact ⟨⟨hc.attrs, hc.grad⟩, hc.current, ⟨(fun h => nomatch h), hc.text.desc⟩⟩
        · split
          · exact ⟨⟨hc.attrs, hc.grad⟩, hc.current, ⟨hc.text.title, (fun h => nomatch h)⟩⟩
          · split
            · split
              · refine ⟨⟨fun id ds hf => ?_, hc.grad⟩, (fun d hd => nomatch hd), ⟨hc.text.title, hc.text.desc⟩⟩
                rcases find_insert_some hf with rfl | hf
                · exact hc.current
                · exact hc.attrs id ds hf
              · exact ⟨⟨hc.attrs, hc.grad⟩, hc.current, ⟨hc.text.title, hc.text.desc⟩⟩
            · split
              · exact ⟨⟨hc.attrs, (fun h => nomatch h)⟩, hc.current, ⟨hc.text.title, hc.text.desc⟩⟩
              · exact hd0 _
  all_goals
    rename_i h
    split at h
    · cases h; try exact hc
    · cases h

/-- The colours of a token. -/
def TokOK (B : Site → Prop) : Token → Prop
  | .start _ attrs => AttrOK B attrs
  | _ => True

/-- One token of any document: if the style stack may panic, so may this token; else there must be a current style, and `use`
must be of complete definitions. What is added: a style for a start tag; an end tag removes one. -/
theorem readToken_safe {B : Site → Prop} (fuel : Nat) {t : Token} (ht : TokOK B t) {c : Cursor F} (hc : TokInv B c)
    (hs : (c.styleStack ≠ [] ∧ ((∀ attrs, t ≠ .start "use".toList attrs) ∨ DefsOK c)) ∨ B .styleStack) :
    (readToken fuel t c).1.Within B True ∧ TokInv B (readToken fuel t c).2 := by
  have hso : StackOr B c := hs.imp And.left id
  cases t with
  | start name attrs =>
    have ht : AttrOK B attrs := ht
    have hw := pushStyle_within attrs c hso ht.paint
    have he := pushStyle_elem attrs c
    have hk := pushStyle_keepsGrad attrs c
    rw [readToken, SM.bind_run]
    rcases hp : pushStyle attrs c with ⟨r, d⟩
    rw [hp] at hw he hk
    have hd : TokInv B d := tokInv_rel he hk hc
    cases r with
    | err e => exact ⟨trivial, hd⟩
    | panic s => exact ⟨hw, hd⟩
    | diverge => exact ⟨trivial, hd⟩
    | ok u =>
      have hst : StackOr B d := by
        rcases pushStyle_frame attrs c with ⟨_, _, st, c2, -, -, -, h'⟩ | ⟨h', -⟩
        · rw [hp] at h'; cases h'; exact .inl (List.cons_ne_nil _ _)
        · rw [hp] at h'; exact absurd rfl (h' u)
      dsimp only
      have hdf : ∀ df, drawFuncs fuel (useF fuel) name = some df → (df attrs d).1.Within B True ∧ TokInv B (df attrs d).2 ∧
          StackOr B (df attrs d).2 := by
        intro df hdr
        by_cases hu : name = "use".toList
        · subst hu
          rw [drawFuncs_use] at hdr
          cases hdr
          have hE := useF_keeps elemR_use fuel attrs d
          rcases hs with ⟨hs, hu | hu⟩ | hB
          · exact absurd rfl (hu attrs)
          · have hne : d.styleStack ≠ [] := by
              rcases pushStyle_frame attrs c with ⟨_, _, st, c2, -, -, -, h'⟩ | ⟨h', -⟩
              · rw [hp] at h'; cases h'; exact List.cons_ne_nil _ _
              · rw [hp] at h'; exact absurd rfl (h' u)
            have hdd : DefsOK d := by intro id ds; rw [he.defs]; exact hu id ds
            have hU := useF_done (B := B) fuel attrs d ⟨hne, hdd, hd.attrs, hd.grad⟩
            refine ⟨hU.within, ⟨⟨by intro id ds; rw [hU.rel.elem.defs]; exact hd.attrs id ds, hU.grad⟩, by rw [hU.rel.elem.currentDef]; exact hd.current,
              elemR_text hU.rel.elem hd.text⟩, .inl hU.ne⟩
          · have hU := useF_any hB fuel attrs d hd.toAnyInv
            exact ⟨hU.1, ⟨hU.2, by rw [hE.currentDef]; exact hd.current, elemR_text hE hd.text⟩, .inr hB⟩
        · have hP := drawFuncs_plain hdr hu attrs d
          refine ⟨drawFuncs_within hdr hu (.inl trivial) attrs ht.stop d hst hd.grad,
            tokInv_rel hP.toElemR (drawFuncs_keepsGrad hdr hu attrs d) hd, ?_⟩
          unfold StackOr; rw [hP.styleStack]; exact hst
      rcases readStartElement_cases fuel name attrs d with ⟨-, -, -, -, h⟩ | ⟨-, ⟨-, h⟩ | ⟨df, hdr, ⟨hn, h⟩ | ⟨-, c', hE, h⟩ | ⟨htm, hn, h⟩⟩⟩
      · rw [h]; exact ⟨trivial, recordDef_inv ht hd⟩
      · rw [h]; exact ⟨tame_within (handleError_tame _ d), tokInv_rel (handleError_elem _ d) (handleError_keepsGrad _ d) hd⟩
      · rw [h]; exact ⟨(hdf df hdr).1, (hdf df hdr).2.1⟩
      · rw [h]; exact ⟨(hdf df hdr).1, emit_inv hE (hdf df hdr).2.1⟩
      · rw [h]
        obtain ⟨-, h2, h3⟩ := hdf df hdr
        exact ⟨h3.elim (fun h => absurd hn h) id, h2⟩
  | stop name =>
    refine ⟨?_, readEnd_inv name hc⟩
    rcases readEnd_cases name c with ⟨h0, h⟩ | ⟨c', -, h, -⟩
    · rw [readToken, h]
      rcases hso with h' | h'
      · exact absurd h0 h'
      · exact h'
    · rw [readToken, h]; trivial
  | chars s =>
    obtain ⟨h1, h2⟩ := readChars_ok s c hc.text
    have h3 := (readChars_keeps s c).eq
    rw [readToken]
    refine ⟨by rw [h1]; trivial, ?_⟩
    refine ⟨⟨?_, ?_⟩, ?_, h2⟩
    · intro id ds; rw [h3]; exact hc.attrs id ds
    · rw [h3]; exact hc.grad
    · rw [h3]; exact hc.current
  | other => exact ⟨trivial, hc⟩

end GoSvg
