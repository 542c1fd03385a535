import Verif.Lemmas.TokenStep
import Verif.Spec.Nesting

/-! What elements do to the parser's flags. -/

set_option linter.unusedSectionVars false

namespace GoSvg

open Spec

variable {F : Type} [GoFloat F] [GoEnv]

open SM (get modify throw lift panic diverge forEach)

/-- Flags, the mask being read and the texts stay. -/
structure FlagR (c c' : Cursor F) : Prop where
  inDefs : c'.inDefs = c.inDefs
  inGrad : c'.inGrad = c.inGrad
  inMask : c'.inMask = c.inMask
  mask : c'.mask = c.mask
  inTitle : c'.inTitleText = c.inTitleText
  inDesc : c'.inDescText = c.inDescText
  titles : c'.svg.titles = c.svg.titles
  descs : c'.svg.descriptions = c.svg.descriptions

theorem flagR_refl (c : Cursor F) : FlagR c c := ⟨rfl, rfl, rfl, rfl, rfl, rfl, rfl, rfl⟩

theorem flagR_pre : Pre (FlagR (F := F)) where
  refl := flagR_refl
  trans h1 h2 := ⟨h2.1.trans h1.1, h2.2.trans h1.2, h2.3.trans h1.3, h2.4.trans h1.4, h2.5.trans h1.5, h2.6.trans h1.6,
    h2.7.trans h1.7, h2.8.trans h1.8⟩

theorem drawR_flag {c c' : Cursor F} (h : DrawR c c') : FlagR c c' := by
  rw [h.eq]; exact ⟨rfl, rfl, rfl, rfl, rfl, rfl, rfl, rfl⟩

theorem svgR_flag {c c' : Cursor F} (h : SvgR c c') : FlagR c c' := by
  rw [h.eq]; exact ⟨rfl, rfl, rfl, rfl, rfl, rfl, rfl, rfl⟩

theorem styleR_flag {c c' : Cursor F} (h : StyleR c c') : FlagR c c' := by
  rw [h.eq]; exact ⟨rfl, rfl, rfl, rfl, rfl, rfl, rfl, rfl⟩

theorem modifyGrad_flag (f : Gradient F → Gradient F) : Keeps FlagR (modifyGrad f) := by
  intro c
  unfold modifyGrad
  cases c.grad <;> exact ⟨rfl, rfl, rfl, rfl, rfl, rfl, rfl, rfl⟩

theorem stopF_flag (attrs : List Attr) : Keeps FlagR (stopF attrs : CM F Unit) := by
  unfold stopF
  exact keeps_bind flagR_pre (keeps_get flagR_pre) fun _ => keeps_ite
    (keeps_bind flagR_pre (keeps_lift flagR_pre _) fun _ => modifyGrad_flag _) (keeps_pure flagR_pre _)

theorem pushStyle_flag (attrs : List Attr) : Keeps FlagR (pushStyle attrs : CM F Unit) := by
  intro c
  rcases pushStyle_frame attrs c with ⟨top, rest, st, c1, -, -, h, h'⟩ | ⟨-, h⟩
  · rw [h']; exact flagR_pre.trans (styleR_flag h) ⟨rfl, rfl, rfl, rfl, rfl, rfl, rfl, rfl⟩
  · exact styleR_flag h

theorem popStyle_flag : Keeps FlagR (popStyle : CM F Unit) := by
  intro c
  unfold popStyle
  split
  · exact flagR_refl c
  · exact ⟨rfl, rfl, rfl, rfl, rfl, rfl, rfl, rfl⟩

theorem handleError_flag (m : Msg) : Keeps FlagR (handleError m : CM F Unit) := fun c => styleR_flag (handleError_styleR m c)

/-- Gradients: the flags but `inGrad` stay. -/
structure GradFlagR (c c' : Cursor F) : Prop where
  inDefs : c'.inDefs = c.inDefs
  inMask : c'.inMask = c.inMask
  mask : c'.mask = c.mask
  inTitle : c'.inTitleText = c.inTitleText
  inDesc : c'.inDescText = c.inDescText
  titles : c'.svg.titles = c.svg.titles
  descs : c'.svg.descriptions = c.svg.descriptions

theorem gradR_flag {c c' : Cursor F} (h : GradR c c') : GradFlagR c c' := by
  rw [h.eq]; exact ⟨rfl, rfl, rfl, rfl, rfl, rfl, rfl⟩

theorem flagR_grad {c c' : Cursor F} (h : FlagR c c') : GradFlagR c c' := ⟨h.1, h.3, h.4, h.5, h.6, h.7, h.8⟩

/-- The quiet elements. -/
def quietTags : List Str := ["svg".toList, "g".toList, "stop".toList] ++ shapeTags

theorem quiet_flag {fuel : Nat} {use : List Attr → CM F Unit} {tag : Str} {df : List Attr → CM F Unit}
    (h : drawFuncs fuel use tag = some df) (ht : tag ∈ quietTags) (attrs : List Attr) : Keeps FlagR (df attrs) := by
  rcases drawFuncs_cases h with ⟨-, h⟩ | ⟨-, rfl⟩ | ⟨-, rfl⟩ | ⟨-, rfl⟩ | ⟨rfl, -⟩ | ⟨rfl, -⟩ | ⟨rfl, -⟩ | ⟨rfl, -⟩ | ⟨rfl, -⟩ |
    ⟨rfl, -⟩ | ⟨rfl, -⟩
  · exact keeps_mono (h attrs) fun _ _ => drawR_flag
  · exact keeps_mono (svgF_keeps attrs) fun _ _ => svgR_flag
  · exact keeps_pure flagR_pre _
  · exact stopF_flag attrs
  all_goals exact absurd ht (by decide)

theorem reusable_quiet {n : Str} (h : ∃ m ∈ reusable, n = m.toList) : n ∈ quietTags ∨ n = "use".toList := by
  obtain ⟨m, hm, rfl⟩ := h
  revert hm m
  decide

/-! ### Maps -/

theorem find_insert_self {α : Type} (m : GoMap α) (k : Str) (v : α) : (m.insert k v).find k = some v := by
  unfold GoMap.insert GoMap.find
  rw [List.lookup_cons]; simp

theorem find_insert_ne {α : Type} (m : GoMap α) {k k' : Str} (h : k' ≠ k) (v : α) : (m.insert k v).find k' = m.find k' := by
  unfold GoMap.insert GoMap.find
  rw [List.lookup_cons]
  have : (k' == k) = false := by simpa using h
  rw [this]
  dsimp only
  induction m with
  | nil => rfl
  | cons e m ih =>
    by_cases he : e.1 = k
    · rw [List.filter_cons_of_neg (by simpa using he), ih, List.lookup_cons]
      have : (k' == e.1) = false := by rw [he]; simpa using h
      rw [this]
    · rw [List.filter_cons_of_pos (by simpa using he), List.lookup_cons, List.lookup_cons, ih]

/-! ### The body of a gradient element -/

/-- What follows `newGrad`: only the new gradient changes, and its entry in the table. -/
structure GradBodyR (c c' : Cursor F) : Prop where
  eq : c' = { c with
    pc := { c.pc with points := c'.pc.points }
    svg := { c.svg with grads := c'.svg.grads, gradHeap := c'.svg.gradHeap } }
  size : c'.svg.gradHeap.length = c.svg.gradHeap.length
  heap : ∀ i, c.grad ≠ some i → c'.svg.gradHeap[i]? = c.svg.gradHeap[i]?
  grads : ∀ id, c'.svg.grads.find id = c.svg.grads.find id ∨ c'.svg.grads.find id = c.grad

theorem gradBodyR_pre : Pre (GradBodyR (F := F)) where
  refl c := ⟨rfl, rfl, fun _ _ => rfl, fun _ => .inl rfl⟩
  trans {a b c} h1 h2 := by
    have hg : b.grad = a.grad := by rw [h1.eq]
    refine ⟨by rw [h2.eq, h1.eq], h2.size.trans h1.size, fun i hi => (h2.heap i (hg ▸ hi)).trans (h1.heap i hi), fun id => ?_⟩
    rcases h2.grads id with h | h
    · rw [h]; exact h1.grads id
    · exact .inr (h.trans hg)

theorem modifyGrad_body (f : Gradient F → Gradient F) : Keeps GradBodyR (modifyGrad f) := by
  rintro ⟨pc, svg, ss, gr, it, id, ig, df, im, cd, mk⟩
  cases gr with
  | none => exact gradBodyR_pre.refl _
  | some addr =>
    refine ⟨rfl, List.length_modify _ _ _, fun i hi => ?_, fun _ => .inl rfl⟩
    show (svg.gradHeap.modify addr f)[i]? = svg.gradHeap[i]?
    have hne : ¬ addr = i := fun h => hi (by rw [h])
    rw [List.getElem?_modify]
    simp [hne]

theorem setGradID_body (id : Str) : Keeps GradBodyR (setGradID id : CM F Unit) := by
  rintro ⟨pc, svg, ss, gr, it, id', ig, df, im, cd, mk⟩
  cases gr with
  | none => exact gradBodyR_pre.refl _
  | some addr =>
    refine ⟨rfl, rfl, fun _ _ => rfl, fun id' => ?_⟩
    by_cases h : id' = id
    · subst h; exact .inr (find_insert_self _ _ _)
    · exact .inl (find_insert_ne _ h _)

theorem parseTransform_body (v : Str) : Keeps GradBodyR (parseTransform v : CM F (Matrix2D F)) := by
  intro c
  cases hs : c.styleStack with
  | nil =>
    rw [show parseTransform v c = (.panic .styleStack, c) by rw [parseTransform, SM.bind_run, SM.get_run]; simp only [hs]; rfl]
    exact gradBodyR_pre.refl c
  | cons top rest =>
    obtain ⟨r, g, h1, h2⟩ := parseTransform_frame (F := F) v top.transform
    rw [h2 c top rest hs rfl]
    exact ⟨rfl, rfl, fun _ _ => rfl, fun _ => .inl rfl⟩

theorem readGradAttr_body (a : Attr) : Keeps GradBodyR (readGradAttr a : CM F Unit) := by
  unfold readGradAttr
  refine keeps_ite ?_ (keeps_ite ?_ (keeps_ite ?_ (keeps_pure gradBodyR_pre _)))
  · exact keeps_bind gradBodyR_pre (parseTransform_body _) fun _ => modifyGrad_body _
  · exact keeps_ite (modifyGrad_body _) (keeps_ite (modifyGrad_body _) (keeps_pure gradBodyR_pre _))
  · exact keeps_ite (modifyGrad_body _) (keeps_ite (modifyGrad_body _) (keeps_ite (modifyGrad_body _) (keeps_pure gradBodyR_pre _)))

theorem currentGrad_body : Keeps GradBodyR (currentGrad : CM F (Gradient F)) := by
  intro c
  unfold currentGrad
  split <;> exact gradBodyR_pre.refl c

theorem linAttr_body (d : LinStrs) (a : Attr) : Keeps GradBodyR (linAttr d a : CM F LinStrs) := by
  unfold linAttr
  have hp : ∀ d : LinStrs, Keeps GradBodyR (pure d : CM F LinStrs) := fun d => keeps_pure gradBodyR_pre d
  exact keeps_ite (keeps_bind gradBodyR_pre (setGradID_body _) fun _ => hp _) (keeps_ite (hp _) (keeps_ite (hp _) (keeps_ite (hp _)
    (keeps_ite (hp _) (keeps_bind gradBodyR_pre (readGradAttr_body _) fun _ => hp _)))))

theorem radAttr_body (d : RadStrs) (a : Attr) : Keeps GradBodyR (radAttr d a : CM F RadStrs) := by
  unfold radAttr
  have hp : ∀ d : RadStrs, Keeps GradBodyR (pure d : CM F RadStrs) := fun d => keeps_pure gradBodyR_pre d
  exact keeps_ite (keeps_bind gradBodyR_pre (setGradID_body _) fun _ => hp _) (keeps_ite (hp _) (keeps_ite (hp _) (keeps_ite (hp _)
    (keeps_ite (hp _) (keeps_ite (hp _) (keeps_ite (hp _) (keeps_bind gradBodyR_pre (readGradAttr_body _) fun _ => hp _)))))))

theorem linearGradientF_body (attrs : List Attr) : ∃ g : CM F Unit, linearGradientF attrs = (newGrad >>= fun _ => g) ∧ Keeps GradBodyR g := by
  have hl : ∀ r : Res F, Keeps GradBodyR (lift r : CM F F) := fun r => keeps_lift gradBodyR_pre r
  exact ⟨_, rfl, keeps_bind gradBodyR_pre (keeps_attrLoop gradBodyR_pre linAttr_body _ _) fun _ =>
    keeps_bind gradBodyR_pre currentGrad_body fun _ => keeps_bind gradBodyR_pre (hl _) fun _ => keeps_bind gradBodyR_pre (hl _) fun _ =>
    keeps_bind gradBodyR_pre (hl _) fun _ => keeps_bind gradBodyR_pre (hl _) fun _ => modifyGrad_body _⟩

theorem radialGradientF_body (attrs : List Attr) : ∃ g : CM F Unit, radialGradientF attrs = (newGrad >>= fun _ => g) ∧ Keeps GradBodyR g := by
  have hl : ∀ r : Res F, Keeps GradBodyR (lift r : CM F F) := fun r => keeps_lift gradBodyR_pre r
  exact ⟨_, rfl, keeps_bind gradBodyR_pre (keeps_attrLoop gradBodyR_pre radAttr_body _ _) fun _ =>
    keeps_bind gradBodyR_pre currentGrad_body fun _ => keeps_bind gradBodyR_pre (hl _) fun _ => keeps_bind gradBodyR_pre (hl _) fun _ =>
    keeps_bind gradBodyR_pre (hl _) fun _ => keeps_bind gradBodyR_pre (hl _) fun _ => keeps_bind gradBodyR_pre (hl _) fun _ =>
    keeps_bind gradBodyR_pre (hl _) fun _ => modifyGrad_body _⟩

theorem stopF_body (attrs : List Attr) : Keeps GradBodyR (stopF attrs : CM F Unit) := by
  unfold stopF
  exact keeps_bind gradBodyR_pre (keeps_get gradBodyR_pre) fun _ => keeps_ite
    (keeps_bind gradBodyR_pre (keeps_lift gradBodyR_pre _) fun _ => modifyGrad_body _) (keeps_pure gradBodyR_pre _)

/-- The cursor after `newGrad`. -/
def withNewGrad (c : Cursor F) : Cursor F :=
  { c with inGrad := true, grad := some c.svg.gradHeap.length,
           svg := { c.svg with gradHeap := c.svg.gradHeap ++ [⟨none, [], c.svg.viewBox, Matrix2D.identity, .pad, .objectBoundingBox⟩] } }

theorem newGrad_run (c : Cursor F) : newGrad c = (.ok (), withNewGrad c) := rfl

/-- A gradient element: a new gradient, then only that one changes. -/
theorem grad_start {fuel : Nat} {use : List Attr → CM F Unit} {tag : Str} {df : List Attr → CM F Unit}
    (h : drawFuncs fuel use tag = some df) (ht : IsGrad tag) (attrs : List Attr) (c : Cursor F) :
    GradBodyR (withNewGrad c) (df attrs c).2 := by
  have key : ∀ f : CM F Unit, (∃ g : CM F Unit, f = (newGrad >>= fun _ => g) ∧ Keeps GradBodyR g) → GradBodyR (withNewGrad c) (f c).2 := by
    rintro f ⟨g, rfl, hg⟩
    rw [SM.bind_run, newGrad_run]
    exact hg _
  rcases drawFuncs_cases h with ⟨h', -⟩ | ⟨rfl, -⟩ | ⟨rfl, -⟩ | ⟨rfl, -⟩ | ⟨rfl, -⟩ | ⟨rfl, -⟩ | ⟨rfl, -⟩ | ⟨-, rfl⟩ | ⟨-, rfl⟩ |
    ⟨rfl, -⟩ | ⟨rfl, -⟩
  · rcases ht with rfl | rfl <;> exact absurd h' (by decide)
  · exact absurd ht (by decide)
  · exact absurd ht (by decide)
  · exact absurd ht (by decide)
  · exact absurd ht (by decide)
  · exact absurd ht (by decide)
  · exact absurd ht (by decide)
  · exact key _ (linearGradientF_body attrs)
  · exact key _ (radialGradientF_body attrs)
  · exact absurd ht (by decide)
  · exact absurd ht (by decide)

/-! ### `use` of complete definitions -/

/-- The number of open groups after a list of definitions that starts with `k` open ones; `none` if it closes more than it
opens or has an element that is not reusable. -/
def defDepth (k : Nat) : List Definition → Option Nat
  | [] => some k
  | d :: ds =>
    if d.tag = "endg".toList then
      match k with
      | 0 => none
      | k + 1 => defDepth k ds
    else if d.tag = "g".toList then defDepth (k + 1) ds
    else if d.tag ∈ quietTags ∨ d.tag = "use".toList then defDepth k ds
    else none

theorem defDepth_append (ds es : List Definition) : ∀ k, defDepth k (ds ++ es) = (defDepth k ds).bind fun k => defDepth k es := by
  induction ds with
  | nil => intro k; rfl
  | cons d ds ih =>
    intro k
    have e : ∀ (k : Nat) (ds : List Definition), defDepth k (d :: ds) =
        if d.tag = "endg".toList then
          match k with
          | 0 => none
          | k + 1 => defDepth k ds
        else if d.tag = "g".toList then defDepth (k + 1) ds
        else if d.tag ∈ quietTags ∨ d.tag = "use".toList then defDepth k ds
        else none := fun k ds => by rw [defDepth.eq_def]
    rw [List.cons_append, e, e]
    split
    · cases k with
      | zero => rfl
      | succ k => exact ih k
    · split
      · exact ih _
      · split
        · exact ih _
        · rfl

/-- Every definition is complete. -/
def DefsOK (c : Cursor F) : Prop := ∀ id ds, c.svg.defs.find id = some ds → defDepth 0 ds = some 0

/-- Flags and the definitions stay, and the mode. -/
structure UseR (c c' : Cursor F) : Prop extends FlagR c c' where
  elem : ElemR c c'

theorem useR_pre : Pre (UseR (F := F)) where
  refl c := ⟨flagR_refl c, elemR_pre.refl c⟩
  trans h1 h2 := ⟨flagR_pre.trans h1.1 h2.1, elemR_pre.trans h1.2 h2.2⟩

theorem useR_defs {c c' : Cursor F} (h : UseR c c') (hd : DefsOK c) : DefsOK c' := by
  intro id ds; rw [h.elem.defs]; exact hd id ds

end GoSvg
