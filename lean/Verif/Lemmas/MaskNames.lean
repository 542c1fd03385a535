import Verif.Lemmas.Blind

/-! The names in the mask list of a style. -/

set_option linter.unusedSectionVars false

namespace GoSvg

open Spec

variable {F : Type} [GoFloat F] [GoEnv]

open SM (get modify throw lift panic diverge forEach)

theorem read_length {a : List (List Str)} {s : Slice} (h : SliceOK a s) : (s.read a).length = s.len := by
  unfold Slice.read
  rw [List.length_take, List.getD_eq_getElem?_getD]
  have := h.full; have := h.le
  omega

theorem read_append {a : List (List Str)} {s : Slice} (h : SliceOK a s) (id : Str) :
    (appendMask a s id).2.read (appendMask a s id).1 = s.read a ++ [id] := by
  have hlen := read_length h
  unfold appendMask
  by_cases hl : s.len < s.cap
  · rw [if_pos hl]
    unfold Slice.read
    dsimp only
    rw [List.getD_eq_getElem?_getD, List.getD_eq_getElem?_getD, List.getElem?_modify]
    simp only [if_true]
    have hf := h.full
    rw [List.getElem?_eq_getElem h.arr] at hf ⊢
    simp only [Option.getD_some] at hf ⊢
    show ((a[s.arr]'h.arr).set s.len id).take (s.len + 1) = (a[s.arr]'h.arr).take s.len ++ [id]
    have hlt : s.len < (a[s.arr]'h.arr).length := by omega
    rw [List.take_add_one, List.getElem?_set_self hlt, take_set_of_le _ _ (Nat.le_refl _)]
    rfl
  · rw [if_neg hl]
    show (List.getD (a ++ [s.read a ++ id :: List.replicate (GoEnv.growCap s.cap - s.len - 1) []]) a.length []).take (s.len + 1) = _
    rw [List.getD_eq_getElem?_getD, List.getElem?_append_right (Nat.le_refl _)]
    simp only [Nat.sub_self, List.getElem?_cons_zero, Option.getD_some]
    rw [← hlen, List.take_append]
    simp

/-- The first three names of the list are those that the values `vs` select, and there are as many. -/
structure Named (a : List (List Str)) (vs : List Str) (s : Slice) : Prop where
  ok : SliceOK a s
  names : ∃ ids, List.Forall₂ (fun v id => parseSelector v = .ok id) vs ids ∧ s.len = ids.length ∧ (s.read a).take 3 = ids.take 3

theorem named_mono {a a' : List (List Str)} {vs : List Str} {s : Slice} (h : MemR a a') (hn : Named a vs s) : Named a' vs s := by
  obtain ⟨h1, ids, h2, h3, h4⟩ := hn
  refine ⟨sliceOK_mono h h1, ids, h2, h3, ?_⟩
  rw [← h4, read_take, read_take, h.same _ h1.arr]

theorem take_three {l l' : List Str} (hl : l.length = l'.length) (h : l.take 3 = l'.take 3) (x : Str) : (l ++ [x]).take 3 = (l' ++ [x]).take 3 := by
  rw [List.take_append, List.take_append, hl, h]

theorem readStyleAttr_named {k v : Str} {st st' : PathStyle F} {c c' : Cursor F} {vs : List Str} (hn : Named c.svg.arrays vs st.masks)
    (h : readStyleAttr st k v c = (.ok st', c')) : Named c'.svg.arrays (vs ++ if k = "mask".toList then [v] else []) st'.masks := by
  have hm := (readStyleAttr_mem st k v c hn.ok).1
  rw [h] at hm
  dsimp only at hm
  by_cases hk : k = "mask".toList
  · rw [if_pos hk]
    rw [readStyleAttr_eff, styleEff_mask.2 hk] at h
    simp only [runEff] at h
    rw [SM.bind_run, SM.lift_run] at h
    cases hp : parseSelector v with
    | ok id =>
      rw [hp] at h
      simp only [addMask_run, Prod.mk.injEq, Res.ok.injEq] at h
      obtain ⟨h1, h2⟩ := h
      obtain ⟨h3, ids, h4, h5, h6⟩ := hn
      refine ⟨?_, ids ++ [id], List.rel_append h4 (.cons hp .nil), ?_, ?_⟩
      · rw [← h1, ← h2]; exact (appendMask_mem h3 id).2
      · rw [← h1]
        show (appendMask c.svg.arrays st.masks id).2.len = _
        have : (appendMask c.svg.arrays st.masks id).2.len = st.masks.len + 1 := by unfold appendMask; split <;> rfl
        rw [this, h5]; simp
      · rw [← h1, ← h2]
        show ((appendMask c.svg.arrays st.masks id).2.read (appendMask c.svg.arrays st.masks id).1).take 3 = _
        rw [read_append h3]
        exact take_three (by rw [read_length h3]; exact h5) h6 id
    | err e => rw [hp] at h; cases h
    | panic e => rw [hp] at h; cases h
    | diverge => rw [hp] at h; cases h
  · rw [if_neg hk, List.append_nil, (readStyleAttr_only h).masks hk]
    exact named_mono hm hn

theorem valuesIn_one (a : String) (d : Str × Str) (ds : List (Str × Str)) : valuesIn [a] (d :: ds) =
    (if d.1 = a.toList then [d.2] else []) ++ valuesIn [a] ds := by
  unfold valuesIn
  rw [List.filter_cons]
  by_cases h : d.1 = a.toList
  · rw [if_pos h, if_pos (by simpa using h)]; rfl
  · rw [if_neg h, if_neg (by simpa using h)]; rfl

theorem declLoop_named (ds : List (Str × Str)) : ∀ {st st' : PathStyle F} {c c' : Cursor F} {vs : List Str}, Named c.svg.arrays vs st.masks →
    declLoop st ds c = (.ok st', c') → Named c'.svg.arrays (vs ++ valuesIn ["mask"] ds) st'.masks := by
  induction ds with
  | nil => intro st st' c c' vs hn h; cases h; simpa [valuesIn] using hn
  | cons d ds ih =>
    intro st st' c c' vs hn h
    rw [declLoop, SM.bind_run] at h
    rcases hr : readStyleAttr st d.1 d.2 c with ⟨r, c1⟩
    rw [hr] at h
    cases r with
    | ok st1 =>
      have := ih (readStyleAttr_named hn hr) h
      rwa [List.append_assoc, ← valuesIn_one] at this
    | err e => cases h
    | panic e => cases h
    | diverge => cases h

/-- The styles on the stack, from the top. -/
def NamedAt (a : List (List Str)) : List Elem → List (PathStyle F) → Prop
  | [], stack => ∃ st, stack = [st] ∧ Named a [] st.masks
  | e :: ch, stack => ∃ st rest, stack = st :: rest ∧ Named a (valuesAlong ["mask"] (e :: ch)) st.masks ∧ NamedAt a ch rest

theorem namedAt_mono {a a' : List (List Str)} (h : MemR a a') : ∀ {ch : List Elem} {stack : List (PathStyle F)}, NamedAt a ch stack →
    NamedAt a' ch stack
  | [], _, ⟨st, h1, h2⟩ => ⟨st, h1, named_mono h h2⟩
  | _ :: _, _, ⟨st, rest, h1, h2, h3⟩ => ⟨st, rest, h1, named_mono h h2, namedAt_mono h h3⟩

theorem namedAt_top {a : List (List Str)} {ch : List Elem} {stack rest : List (PathStyle F)} {st : PathStyle F} (h : NamedAt a ch stack)
    (hs : stack = st :: rest) : Named a (valuesAlong ["mask"] ch) st.masks := by
  cases ch with
  | nil => obtain ⟨st', h1, h2⟩ := h; rw [h1] at hs; cases hs; exact h2
  | cons e ch => obtain ⟨st', rest', h1, h2, -⟩ := h; rw [h1] at hs; cases hs; exact h2

/-- The state while a document is read. -/
structure NamesAt (ch : List Elem) (c : Cursor F) : Prop where
  paths : PathsOK c
  names : NamedAt c.svg.arrays ch c.styleStack

theorem namesAt_init (m : ErrorMode) : NamesAt [] (initCursor (F := F) m) :=
  ⟨pathsOK_init m, defaultStyle, rfl, (pathsOK_init (F := F) m).1 defaultStyle List.mem_cons_self, [], .nil, rfl, rfl⟩

/-- A start tag: the style it pushes, with the names in the state after it. -/
theorem start_named {fuel : Nat} {name : Str} {attrs : List Attr} {c c' : Cursor F} {u : Unit} {ch : List Elem} (hn : NamesAt ch c)
    (h : readToken fuel (.start name attrs) c = (.ok u, c')) {top st : PathStyle F} {rest : List (PathStyle F)} {c1 : Cursor F}
    (hs : c.styleStack = top :: rest) (hl : declLoop top (decls attrs) c = (.ok st, c1)) :
    Named c'.svg.arrays (valuesAlong ["mask"] (⟨name, attrs⟩ :: ch)) st.masks ∧ MemR c.svg.arrays c'.svg.arrays ∧ PathsOK c' := by
  have hall := readToken_maskPath fuel (.start name attrs) c hn.paths
  rw [h] at hall
  refine ⟨?_, hall.2, hall.1⟩
  rw [readToken, SM.bind_run] at h
  rcases pushStyle_frame attrs c with ⟨top', rest', st', c1', hs', hl', hR, hp⟩ | ⟨hno, -⟩
  · rw [hs] at hs'; cases hs'
    rw [hl] at hl'; cases hl'
    have hpm := maskPathR_of (pushStyle_mask attrs c) (pushStyle_elem attrs c).svgPaths hn.paths
    rw [hp] at h hpm
    dsimp only at h hpm
    have hst := declLoop_named (decls attrs) (namedAt_top hn.names hs) hl
    have hm := readStart_maskPath fuel name attrs _ hpm.1
    rw [h] at hm
    rw [valuesAlong_cons, ← decls_eq_declared]
    exact named_mono hm.2 hst
  · rcases hp : pushStyle attrs c with ⟨r, d⟩
    rw [hp] at h hno
    cases r with
    | ok u => exact absurd rfl (hno u)
    | err _ => cases h
    | panic _ => cases h
    | diverge => cases h

theorem step_named {fuel : Nat} {t : Token} {ts : List Token} {c c' : Cursor F} {u : Unit} {ch ch' : List Elem}
    (hj : BalAt ch (t :: ts) c) (hn : NamesAt ch c) (hst : Step ch t ch') (h : readToken fuel t c = (.ok u, c')) : NamesAt ch' c' := by
  have hall := readToken_maskPath fuel t c hn.paths
  rw [h] at hall
  refine ⟨hall.1, ?_⟩
  cases hst with
  | start name attrs =>
    obtain ⟨top, rest, st, c1, h1, h2, h3, -⟩ := start_stack hj.inv hj.useFine h
    have hs := start_named hn h h1 h2
    refine ⟨st, top :: rest, h3, hs.1, ?_⟩
    rw [← h1]
    exact namedAt_mono hs.2.1 hn.names
  | stop e ch =>
    obtain ⟨-, hE⟩ := stop_stack h
    obtain ⟨st, rest, h1, -, h2⟩ := hn.names
    rw [hE.stack, h1, hE.eq]
    exact h2
  | chars _ => rw [chars_fields h]; exact hn.names
  | other => cases h; exact hn.names

end GoSvg
