import Verif.Lemmas.Docs
import Verif.Lemmas.Styles
import Verif.Props.Matrix
import Verif.Props.Shapes
import Verif.Spec.TransformText

/-! Properties C21 and C22: transform lists and nested transforms, in exact arithmetic. -/

set_option linter.unusedSectionVars false

namespace GoSvg

open Spec

section Reading

variable {F : Type} [GoFloat F] [GoEnv]

open SM (get modify throw lift panic diverge forEach)

/-- The text of a function without the closing parenthesis. -/
def FnText.open {F : Type} (t : FnText F) : Str := t.pre ++ t.name ++ t.mid ++ '(' :: t.args ++ t.post

theorem not_mem_blank {w : Str} (h : Blank w) {c : Char} (hc : isSpace c = false) : c ∉ w := fun hm => by
  rw [h c hm] at hc; simp at hc

theorem not_mem_letters {w : Str} (h : ∀ c ∈ w, c.isAlpha = true) {c : Char} (hc : c.isAlpha = false) : c ∉ w := fun hm => by
  rw [h c hm] at hc; simp at hc

theorem alpha_range {c : Char} (h : c.isAlpha = true) : 65 ≤ c.toNat ∧ c.toNat ≤ 122 := by
  simp only [Char.isAlpha, Char.isUpper, Char.isLower, Bool.or_eq_true, Bool.and_eq_true, decide_eq_true_eq] at h
  rcases h with ⟨h1, h2⟩ | ⟨h1, h2⟩ <;>
  · have h1 := UInt32.le_iff_toNat_le.1 h1
    have h2 := UInt32.le_iff_toNat_le.1 h2
    change _ ≤ c.toNat at h1
    change c.toNat ≤ _ at h2
    simp at h1 h2; omega

theorem alpha_ascii {c : Char} (h : c.isAlpha = true) : c.toNat < 128 := by
  have := alpha_range h; omega

theorem alpha_not_space {c : Char} (h : c.isAlpha = true) : isSpace c = false := by
  have h1 := alpha_range h
  unfold isSpace
  simp only [Bool.or_eq_false_iff, decide_eq_false_iff_not, Bool.and_eq_false_iff, List.mem_cons, List.not_mem_nil, or_false,
    not_or]
  omega

theorem toLower_letters {w : Str} (h : ∀ c ∈ w, c.isAlpha = true) : toLower w = w.map Char.toLower := by
  unfold toLower
  exact List.map_congr_left fun c hc => GoEnv.toLower_ascii c (alpha_ascii (h c hc))

theorem split_listText (l : List (FnText F)) (hl : ∀ t ∈ l, t.WF) (last : Str) (hlast : Blank last) :
    split ')' (listText l last) = l.map FnText.open ++ [last] := by
  induction l with
  | nil => exact split_no_sep (not_mem_blank hlast (by decide))
  | cons t l ih =>
    have ht := hl t List.mem_cons_self
    have e : listText (t :: l) last = FnText.open t ++ ')' :: listText l last := by
      simp [listText, FnText.text, FnText.open]
    rw [e, split_append_sep, ih fun x hx => hl x (List.mem_cons_of_mem _ hx)]
    · rfl
    · simp only [FnText.open, List.mem_append, List.mem_cons, not_or]
      exact ⟨⟨⟨⟨not_mem_blank ht.pre (by decide), not_mem_letters ht.letters (by decide)⟩,
        not_mem_blank ht.mid (by decide)⟩, by decide, ht.no_paren.2⟩, not_mem_blank ht.post (by decide)⟩

theorem trimSpace_open {t : FnText F} (ht : t.WF) : trimSpace (FnText.open t) = t.name ++ t.mid ++ '(' :: t.args := by
  have e : FnText.open t = t.pre ++ (t.name ++ t.mid ++ '(' :: t.args) ++ t.post := by simp [FnText.open]
  rw [e]
  refine trimSpace_pad ht.pre ht.post ⟨fun c hc => ?_, fun c hc => ?_⟩
  · obtain ⟨n, ns, hn⟩ := List.exists_cons_of_ne_nil ht.name
    rw [hn] at hc
    simp at hc
    subst hc
    exact alpha_not_space (ht.letters _ (by rw [hn]; exact List.mem_cons_self))
  · apply ht.last c
    rw [← hc]
    obtain ⟨a, as, ha⟩ := List.exists_cons_of_ne_nil ht.nonempty
    rw [ha]; simp [List.getLast?_cons, List.getLast?_append]

theorem split_open {t : FnText F} (ht : t.WF) : split '(' (t.name ++ t.mid ++ '(' :: t.args) = [t.name ++ t.mid, t.args] := by
  rw [split_append_sep, split_no_sep ht.no_paren.1]
  simp only [List.mem_append, not_or]
  exact ⟨not_mem_letters ht.letters (by decide), not_mem_blank ht.mid (by decide)⟩

theorem trimSpace_name {t : FnText F} (ht : t.WF) : trimSpace (t.name ++ t.mid) = t.name := by
  have := trimSpace_pad (w := []) (s := t.name) (w' := t.mid) (by simp) ht.mid
    ⟨fun c hc => alpha_not_space (ht.letters c (List.mem_of_mem_head? hc)),
     fun c hc => alpha_not_space (ht.letters c (List.mem_of_mem_getLast? hc))⟩
  simpa using this

/-- The functions of a list, visited in the order given. -/
def stepAll (m : Matrix2D F) (l : List (FnText F)) : Res (Matrix2D F) :=
  Res.loop (fun m t => readTransformAttr m (t.name.map Char.toLower) t.nums) m l

theorem transformLoop_list (l : List (FnText F)) (hl : ∀ t ∈ l, t.WF) : ∀ (m : Matrix2D F) (c : Cursor F),
    (transformLoop m (l.map FnText.open) c).1 = stepAll m l := by
  induction l with
  | nil => intro m c; rfl
  | cons t l ih =>
    intro m c
    have ht := hl t List.mem_cons_self
    have hne : trimSpace (FnText.open t) ≠ [] := by rw [trimSpace_open ht]; simp
    rw [List.map_cons, transformLoop_item hne, trimSpace_open ht, split_open ht]
    dsimp only
    rw [if_neg ht.nonempty, SM.bind_run]
    have hp : onPath (getPoints t.args) c = (.ok (), { c with pc := { c.pc with points := t.nums } }) := by
      unfold onPath; rw [writesNumbers_get ht.nums]
    rw [hp]
    simp only [SM.bind_run, SM.get_run, SM.lift_run]
    rw [trimSpace_name ht, toLower_letters ht.letters, stepAll, Res.loop]
    cases hr : readTransformAttr m (t.name.map Char.toLower) t.nums with
    | ok m' => exact ih (fun x hx => hl x (List.mem_cons_of_mem _ hx)) m' _
    | err e => rfl
    | panic e => rfl
    | diverge => rfl

/-- Reading the text of a list visits its functions from the last to the first, starting from the matrix of the surrounding
style. -/
theorem parseTransform_list (l : List (FnText F)) (hl : ∀ t ∈ l, t.WF) {last : Str} (hlast : Blank last) {c : Cursor F}
    {top : PathStyle F} {rest : List (PathStyle F)} (hs : c.styleStack = top :: rest) :
    (parseTransform (listText l last) c).1 = stepAll top.transform l.reverse := by
  rw [parseTransform, SM.bind_run, SM.get_run]
  simp only [hs]
  rw [split_listText l hl last hlast, List.reverse_append, List.reverse_singleton, List.singleton_append,
    transformLoop_blank, ← List.map_reverse]
  · exact transformLoop_list _ (fun t ht => hl t (List.mem_reverse.1 ht)) _ c
  · have := trimSpace_pad (w := last) (s := []) (w' := []) hlast (by simp) ⟨by simp, by simp⟩
    simpa using this

/-- `v` is the last value the attributes give to the property `k`. -/
def LastDecl (attrs : List Attr) (k : String) (v : Str) : Prop :=
  ∃ l1 l2, decls attrs = l1 ++ (k.toList, v) :: l2 ∧ ∀ d ∈ l2, d.1 ≠ k.toList

theorem declLoop_append (l1 l2 : List (Str × Str)) : ∀ (st : PathStyle F), declLoop st (l1 ++ l2) = (do
    let st ← declLoop st l1
    declLoop st l2 : CM F (PathStyle F)) := by
  induction l1 with
  | nil => intro st; rfl
  | cons d l1 ih =>
    intro st
    funext c
    simp only [List.cons_append, declLoop, SM.bind_run, ih]
    cases readStyleAttr st d.1 d.2 c with
    | mk r c1 => cases r <;> rfl

theorem styleR_stack {c c' : Cursor F} (h : StyleR c c') : c'.styleStack = c.styleStack := by rw [h.eq]

theorem declLoop_keeps_transform (l : List (Str × Str)) (hl : ∀ d ∈ l, d.1 ≠ "transform".toList) :
    ∀ (st st' : PathStyle F) (c c' : Cursor F), declLoop st l c = (.ok st', c') → st'.transform = st.transform := by
  induction l with
  | nil => intro st st' c c' h; simp only [declLoop, SM.pure_run, Prod.mk.injEq, Res.ok.injEq] at h; rw [h.1]
  | cons d l ih =>
    intro st st' c c' h
    rw [declLoop, SM.bind_run] at h
    cases hr : readStyleAttr st d.1 d.2 c with
    | mk r c1 =>
      rw [hr] at h
      cases r with
      | ok st1 =>
        rw [ih (fun x hx => hl x (List.mem_cons_of_mem _ hx)) st1 st' c1 c' h]
        exact (readStyleAttr_only hr).transform (hl d List.mem_cons_self)
      | err e => simp at h
      | panic e => simp at h
      | diverge => simp at h

/-- The transform of the style an element pushes is the one its last `transform` says. -/
theorem pushStyle_transform {attrs : List Attr} {v : Str} (hv : LastDecl attrs "transform" v) {c c' : Cursor F}
    {top : PathStyle F} {rest : List (PathStyle F)} (hs : c.styleStack = top :: rest) (h : pushStyle attrs c = (.ok (), c')) :
    ∃ st m, c'.styleStack = st :: c.styleStack ∧ (parseTransform v c).1 = .ok m ∧ st.transform = m := by
  obtain ⟨l1, l2, hd, h2⟩ := hv
  rcases pushStyle_frame attrs c with ⟨top', rest', st, c1, hs', hl, hR, hp⟩ | ⟨hne, -⟩
  · rw [hs] at hs'
    obtain ⟨rfl, rfl⟩ := List.cons.inj hs'
    rw [hp] at h
    simp only [Prod.mk.injEq, true_and] at h
    subst h
    rw [hd, declLoop_append, SM.bind_run] at hl
    have hR1 := declLoop_styleR l1 top c
    cases hl1 : declLoop top l1 c with
    | mk r d =>
      rw [hl1] at hl hR1
      cases r with
      | ok st1 =>
        simp only [declLoop] at hl
        rw [SM.bind_run, readStyleAttr_eff, styleEff_transform.2 rfl, runEff, SM.bind_run] at hl
        obtain ⟨r, g, -, hg⟩ := parseTransform_frame (F := F) v top.transform
        have hds : d.styleStack = top :: rest := (styleR_stack hR1).trans hs
        rw [hg d top rest hds rfl] at hl
        cases r with
        | ok m =>
          have := declLoop_keeps_transform l2 h2 _ _ _ _ hl
          exact ⟨st, m, rfl, by rw [hg c top rest hs rfl], this⟩
        | err e => simp at hl
        | panic e => simp at hl
        | diverge => simp at hl
      | err e => simp at hl
      | panic e => simp at hl
      | diverge => simp at hl
  · rw [h] at hne; exact absurd rfl (hne ())

/-- Without a `transform` an element has the transform of its parent. -/
theorem pushStyle_no_transform {attrs : List Attr} (hv : ∀ d ∈ decls attrs, d.1 ≠ "transform".toList) {c c' : Cursor F}
    {top : PathStyle F} {rest : List (PathStyle F)} (hs : c.styleStack = top :: rest) (h : pushStyle attrs c = (.ok (), c')) :
    ∃ st, c'.styleStack = st :: c.styleStack ∧ st.transform = top.transform := by
  rcases pushStyle_frame attrs c with ⟨top', rest', st, c1, hs', hl, hR, hp⟩ | ⟨hne, -⟩
  · rw [hs] at hs'
    obtain ⟨rfl, rfl⟩ := List.cons.inj hs'
    rw [hp] at h
    simp only [Prod.mk.injEq, true_and] at h
    subst h
    exact ⟨st, rfl, declLoop_keeps_transform _ hv _ _ _ _ hl⟩
  · rw [h] at hne; exact absurd rfl (hne ())

theorem loop_append {α β : Type} (step : β → α → Res β) (l1 l2 : List α) : ∀ b, Res.loop step b (l1 ++ l2) = (do
    let b ← Res.loop step b l1
    Res.loop step b l2) := by
  induction l1 with
  | nil => intro b; rfl
  | cons a l1 ih =>
    intro b
    rw [List.cons_append, Res.loop, Res.loop]
    cases step b a with
    | ok b1 => exact ih b1
    | err e => rfl
    | panic e => rfl
    | diverge => rfl

end Reading

/-! ### C21 -/

section Lists

variable [GoEnv]

/-- `translate` with two numbers, or `scale`. -/
def Shifting (t : FnText ℝ) : Prop :=
  (t.name.map Char.toLower = "translate".toList ∧ t.nums.length = 2) ∨ t.name.map Char.toLower = "scale".toList

/-- Those, `rotate` with one number, the skews and `matrix`. -/
def Basic (t : FnText ℝ) : Prop :=
  Shifting t ∨ (t.name.map Char.toLower = "rotate".toList ∧ t.nums.length = 1) ∨ t.name.map Char.toLower = "skewx".toList ∨
    t.name.map Char.toLower = "skewy".toList ∨ t.name.map Char.toLower = "matrix".toList

theorem shifting_step {t : FnText ℝ} {f : Fn} (hm : Means t.name t.nums f) (h : Shifting t) (m : Matrix2D ℝ) :
    ∃ m', readTransformAttr m (t.name.map Char.toLower) t.nums = .ok m' ∧ ∀ p, affine m' p = f.apply (affine m p) := by
  obtain ⟨pre, n, mid, args, post, ns⟩ := t
  unfold Shifting at h
  dsimp only at *
  cases hm with
  | translate e =>
    rw [e]
    refine ⟨_, rfl, fun p => ?_⟩
    simp only [affine, Fn.apply, Matrix2D.translate, real_add, Prod.mk.injEq]
    constructor <;> ring
  | translateX e => rw [e] at h; simp at h
  | scale e =>
    rw [e]
    refine ⟨_, rfl, fun p => ?_⟩
    simp only [affine, Fn.apply, Matrix2D.scale, real_mul, Prod.mk.injEq]
    constructor <;> ring
  | scaleBoth e =>
    rw [e]
    refine ⟨_, rfl, fun p => ?_⟩
    simp only [affine, Fn.apply, Matrix2D.scale, real_mul, Prod.mk.injEq]
    constructor <;> ring
  | rotate e => rw [e] at h; simp at h
  | rotateAbout e => rw [e] at h; simp at h
  | skewX e => rw [e] at h; simp at h
  | skewY e => rw [e] at h; simp at h
  | matrix e => rw [e] at h; simp at h

theorem rad_eq (a : ℝ) : (a *. GoFloat.piMul 1 /. num 180 : ℝ) = rad a := by
  simp only [real_mul, real_div, real_num, real_piMul, rad]; norm_num

theorem basic_step {t : FnText ℝ} {f : Fn} (hm : Means t.name t.nums f) (h : Basic t) :
    ∃ m', readTransformAttr Matrix2D.identity (t.name.map Char.toLower) t.nums = .ok m' ∧ ∀ p, affine m' p = f.apply p := by
  by_cases hs : Shifting t
  · obtain ⟨m', h1, h2⟩ := shifting_step hm hs Matrix2D.identity
    exact ⟨m', h1, fun p => by rw [h2, C20_identity_map]⟩
  obtain ⟨pre, n, mid, args, post, ns⟩ := t
  unfold Basic at h
  unfold Shifting at h hs
  dsimp only at *
  cases hm with
  | translate e => rw [e] at hs; simp at hs
  | translateX e => rw [e] at h; simp at h
  | scale e => rw [e] at hs; simp at hs
  | scaleBoth e => rw [e] at hs; simp at hs
  | rotate e =>
    rw [e]
    refine ⟨_, rfl, fun p => ?_⟩
    simp only [Matrix2D.rotate, C20_identity_mult, rad_eq, affine, Fn.apply, rot, real_cos, real_sin, real_neg, Prod.mk.injEq]
    norm_num
    ring
  | rotateAbout e => rw [e] at h; simp at h
  | skewX e =>
    rw [e]
    refine ⟨_, rfl, fun p => ?_⟩
    simp only [Matrix2D.skewX, C20_identity_mult, rad_eq, affine, Fn.apply, real_tan, Prod.mk.injEq]
    norm_num
  | skewY e =>
    rw [e]
    refine ⟨_, rfl, fun p => ?_⟩
    simp only [Matrix2D.skewY, C20_identity_mult, rad_eq, affine, Fn.apply, real_tan, Prod.mk.injEq]
    norm_num
    ring
  | matrix e =>
    rw [e]
    refine ⟨_, rfl, fun p => ?_⟩
    rw [(C20_identity_mult _).1]
    rfl

theorem stepAll_list {l : List (FnText ℝ)} {fs : List Fn} (hm : MeansList l fs) (hs : ∀ t ∈ l, Shifting t) (m : Matrix2D ℝ) :
    ∃ m', stepAll m l.reverse = .ok m' ∧ ∀ p, affine m' p = applyList fs (affine m p) := by
  induction hm with
  | nil => exact ⟨m, rfl, fun p => rfl⟩
  | @cons t f l fs h1 h2 ih =>
    obtain ⟨m1, e1, e2⟩ := ih fun x hx => hs x (List.mem_cons_of_mem _ hx)
    obtain ⟨m2, e3, e4⟩ := shifting_step h1 (hs t List.mem_cons_self) m1
    refine ⟨m2, ?_, fun p => ?_⟩
    · rw [List.reverse_cons, stepAll, loop_append, ← stepAll, e1]
      simp only [Res.bind_ok, Res.loop, e3]
    · rw [e4, e2]; rfl

/-- The list `l` stands for `fs` and is one that is read correctly: `translate(x,y)` and `scale` anywhere, and one of the other
functions (but no rotation about a point) only as the right-most one. -/
def ReadRight (l : List (FnText ℝ)) : Prop := (∀ t ∈ l.dropLast, Shifting t) ∧ ∀ t, l.getLast? = some t → Basic t

theorem forall₂_concat {α β : Type} {R : α → β → Prop} {l : List α} {a : α} : ∀ {bs : List β}, List.Forall₂ R (l ++ [a]) bs →
    ∃ bs1 b, List.Forall₂ R l bs1 ∧ R a b ∧ bs = bs1 ++ [b] := by
  induction l with
  | nil =>
    intro bs h
    cases h with
    | cons h1 h2 => cases h2; exact ⟨[], _, .nil, h1, rfl⟩
  | cons x l ih =>
    intro bs h
    cases h with
    | @cons _ b _ bs' h1 h2 =>
      obtain ⟨bs1, b', h3, h4, rfl⟩ := ih h2
      exact ⟨b :: bs1, b', .cons h1 h3, h4, rfl⟩

theorem stepAll_identity {l : List (FnText ℝ)} {fs : List Fn} (hm : MeansList l fs) (hr : ReadRight l) :
    ∃ m', stepAll Matrix2D.identity l.reverse = .ok m' ∧ ∀ p, affine m' p = applyList fs p := by
  rcases List.eq_nil_or_concat l with rfl | ⟨l', t, rfl⟩
  · cases hm
    exact ⟨Matrix2D.identity, rfl, fun p => C20_identity_map p⟩
  · rw [List.concat_eq_append] at *
    obtain ⟨fs1, f, h1, h3, rfl⟩ := forall₂_concat hm
    obtain ⟨m1, e1, e2⟩ := basic_step h3 (hr.2 t (by simp))
    obtain ⟨m2, e3, e4⟩ := stepAll_list h1 (fun x hx => hr.1 x (by simpa using hx)) m1
    refine ⟨m2, ?_, fun p => ?_⟩
    · rw [List.reverse_append, List.reverse_singleton, List.singleton_append, stepAll, Res.loop, e1]
      exact e3
    · rw [e4, e2, applyList, applyList, List.foldr_append]; rfl

/-- C21, for the lists described by `ReadRight` (any number of functions, any spelling, names in any letter case, white space
between the functions): for an element whose ancestors have no transform, the matrix of its style maps every point to the
result of applying the functions from the right-most to the left-most. What is missing for the full claim is false, see
`C21_single_translate_false`, `C21_rotate_about_false`, `C21_order_false` and `C21_comma_false`. -/
theorem C21_transform_list_partial {attrs : List Attr} {l : List (FnText ℝ)} {fs : List Fn} (hl : ∀ t ∈ l, t.WF)
    (hm : MeansList l fs) (hr : ReadRight l) (hv : LastDecl attrs "transform" (listText l [])) {c c' : Cursor ℝ}
    {top : PathStyle ℝ} {rest : List (PathStyle ℝ)} (hs : c.styleStack = top :: rest) (hid : top.transform = Matrix2D.identity)
    (h : pushStyle attrs c = (.ok (), c')) :
    ∃ st, c'.styleStack = st :: top :: rest ∧ ∀ p, affine st.transform p = applyList fs p := by
  obtain ⟨st, m, h1, h2, h3⟩ := pushStyle_transform hv hs h
  obtain ⟨m', e1, e2⟩ := stepAll_identity hm hr
  rw [parseTransform_list l hl (by intro c hc; simp at hc) hs, hid, e1, Res.ok.injEq] at h2
  exact ⟨st, by rw [h1, hs], fun p => by rw [h3, ← h2, e2]⟩

/-- Such a list is accepted (in every error mode, with any parent). -/
theorem C21_accepted {l : List (FnText ℝ)} {fs : List Fn} (hl : ∀ t ∈ l, t.WF) (hm : MeansList l fs) {c : Cursor ℝ}
    {top : PathStyle ℝ} {rest : List (PathStyle ℝ)} (hs : c.styleStack = top :: rest) {last : Str} (hlast : Blank last) :
    ∃ m, (parseTransform (listText l last) c).1 = .ok m := by
  rw [parseTransform_list l hl hlast hs]
  have : ∀ (l : List (FnText ℝ)) (m : Matrix2D ℝ), (∀ t ∈ l, ∃ f, Means t.name t.nums f) → ∃ m', stepAll m l = .ok m' := by
    intro l
    induction l with
    | nil => intro m _; exact ⟨m, rfl⟩
    | cons t l ih =>
      intro m h
      obtain ⟨f, hf⟩ := h t List.mem_cons_self
      have : ∃ m1, readTransformAttr m (t.name.map Char.toLower) t.nums = .ok m1 := by
        obtain ⟨pre, n, mid, args, post, ns⟩ := t
        dsimp only at *
        cases hf with
        | translate e => rw [e]; exact ⟨_, rfl⟩
        | translateX e => rw [e]; exact ⟨_, rfl⟩
        | scale e => rw [e]; exact ⟨_, rfl⟩
        | scaleBoth e => rw [e]; exact ⟨_, rfl⟩
        | rotate e => rw [e]; exact ⟨_, rfl⟩
        | rotateAbout e => rw [e]; exact ⟨_, rfl⟩
        | skewX e => rw [e]; exact ⟨_, rfl⟩
        | skewY e => rw [e]; exact ⟨_, rfl⟩
        | matrix e => rw [e]; exact ⟨_, rfl⟩
      obtain ⟨m1, h1⟩ := this
      obtain ⟨m2, h2⟩ := ih m1 fun x hx => h x (List.mem_cons_of_mem _ hx)
      exact ⟨m2, by rw [stepAll, Res.loop, h1]; exact h2⟩
  refine this _ _ fun t ht => ?_
  rw [List.mem_reverse] at ht
  clear hs hl this
  induction hm with
  | nil => simp at ht
  | cons h1 _ ih =>
    rcases List.mem_cons.1 ht with rfl | ht
    · exact ⟨_, h1⟩
    · exact ih ht

/-! ### C22 -/

/-- When a function in a child's list and the matrix of the parent compose correctly: for `translate` when the parent's linear
part leaves the shift alone; for `scale` when the parent does not mix the axes (or the scaling is uniform) and no translation
gets scaled; for rotations and matrices when the parent's translation meets no factor other than one; for skews always. -/
def Composes (m : Matrix2D ℝ) : Fn → Prop
  | .translate x y => m.a * x + m.c * y = x ∧ m.b * x + m.d * y = y
  | .scale x y => m.b * (x - y) = 0 ∧ m.c * (x - y) = 0 ∧ m.e * (x - 1) = 0 ∧ m.f * (y - 1) = 0
  | .rotate a => m.e * (Real.cos (rad a) - 1) = 0 ∧ m.f * (Real.cos (rad a) - 1) = 0
  | .rotateAbout _ _ _ => False
  | .skewX _ => True
  | .skewY _ => True
  | .matrix b => m.e * (b.a - 1) = 0 ∧ m.f * (b.d - 1) = 0

theorem composes_translate (m : Matrix2D ℝ) (x y : ℝ) : (∀ p, affine (m.translate x y) p = affine m ((Fn.translate x y).apply p)) ↔
    Composes m (.translate x y) := by
  unfold Composes
  constructor
  · intro h
    have := h (0, 0)
    simp only [affine, Fn.apply, Matrix2D.translate, real_add, Prod.mk.injEq] at this
    constructor <;> linarith [this.1, this.2]
  · intro h p
    simp only [affine, Fn.apply, Matrix2D.translate, real_add, Prod.mk.injEq]
    constructor <;> linarith [h.1, h.2]

theorem composes_scale (m : Matrix2D ℝ) (x y : ℝ) : (∀ p, affine (m.scale x y) p = affine m ((Fn.scale x y).apply p)) ↔
    Composes m (.scale x y) := by
  unfold Composes
  constructor
  · intro h
    have h0 := h (0, 0)
    have h1 := h (1, 0)
    have h2 := h (0, 1)
    simp only [affine, Fn.apply, Matrix2D.scale, real_mul, Prod.mk.injEq] at h0 h1 h2
    refine ⟨?_, ?_, ?_, ?_⟩ <;> linarith [h0.1, h0.2, h1.1, h1.2, h2.1, h2.2]
  · rintro ⟨h1, h2, h3, h4⟩ p
    simp only [affine, Fn.apply, Matrix2D.scale, real_mul, Prod.mk.injEq]
    constructor
    · linear_combination p.2 * h2 + h3
    · linear_combination -p.1 * h1 + h4

theorem composes_mult (m b : Matrix2D ℝ) {f : Fn} (h : ∀ p, affine b p = f.apply p) :
    (∀ p, affine (m.mult b) p = affine m (f.apply p)) ↔ m.e * (b.a - 1) = 0 ∧ m.f * (b.d - 1) = 0 := by
  simp only [← h]
  exact C18_mult_is_composition_partial m b

/-- One function after the matrix `M`. -/
theorem nested_step {t : FnText ℝ} {f : Fn} (hm : Means t.name t.nums f) (hb : Basic t) {M m : Matrix2D ℝ}
    (h2 : readTransformAttr M (t.name.map Char.toLower) t.nums = .ok m) :
    (∀ p, affine m p = affine M (f.apply p)) ↔ Composes M f := by
  obtain ⟨pre, n, mid, args, post, ns⟩ := t
  unfold Basic Shifting at hb
  dsimp only at *
  cases hm with
  | translate e =>
    rw [e] at h2
    simp [readTransformAttr] at h2
    rw [← h2]; exact composes_translate _ _ _
  | translateX e => rw [e] at hb; simp at hb
  | scale e =>
    rw [e] at h2
    simp [readTransformAttr] at h2
    rw [← h2]; exact composes_scale _ _ _
  | scaleBoth e =>
    rw [e] at h2
    simp [readTransformAttr] at h2
    rw [← h2]; exact composes_scale _ _ _
  | @rotate a e =>
    rw [e] at h2
    simp only [readTransformAttr, if_true, Res.ok.injEq, rad_eq, Matrix2D.rotate] at h2
    rw [← h2]
    refine composes_mult _ _ fun p => ?_
    simp only [affine, Fn.apply, rot, real_cos, real_sin, real_neg, Prod.mk.injEq]
    norm_num
    ring
  | rotateAbout e => rw [e] at hb; simp at hb
  | @skewX a e =>
    rw [e] at h2
    have h2' : M.skewX (rad a) = m := by
      rw [← rad_eq]; exact Res.ok.inj (by simpa [readTransformAttr] using h2)
    rw [← h2', Matrix2D.skewX]
    rw [composes_mult (f := .skewX a)]
    · simp [Composes]
    · intro p
      simp only [affine, Fn.apply, real_tan, Prod.mk.injEq]
      norm_num
  | @skewY a e =>
    rw [e] at h2
    have h2' : M.skewY (rad a) = m := by
      rw [← rad_eq]; exact Res.ok.inj (by simpa [readTransformAttr] using h2)
    rw [← h2', Matrix2D.skewY]
    rw [composes_mult (f := .skewY a)]
    · simp [Composes]
    · intro p
      simp only [affine, Fn.apply, real_tan, Prod.mk.injEq]
      norm_num
      ring
  | matrix e =>
    rw [e] at h2
    simp [readTransformAttr] at h2
    rw [← h2]; exact composes_mult _ _ fun p => rfl

/-- C22, for a child whose list has one function (except a rotation about a point and `translate` with one number) and any
parent: exactly when a point is mapped by the function and then by the parent's matrix. The full claim is false
(`C22_nested_false`). -/
theorem C22_nested_partial {attrs : List Attr} {t : FnText ℝ} {f : Fn} (hl : t.WF) (hm : Means t.name t.nums f) (hb : Basic t)
    (hv : LastDecl attrs "transform" t.text) {c c' : Cursor ℝ} {top : PathStyle ℝ} {rest : List (PathStyle ℝ)}
    (hs : c.styleStack = top :: rest) (h : pushStyle attrs c = (.ok (), c')) :
    ∃ st, c'.styleStack = st :: top :: rest ∧
      ((∀ p, affine st.transform p = affine top.transform (f.apply p)) ↔ Composes top.transform f) := by
  have e : t.text = listText [t] [] := by simp [listText]
  rw [e] at hv
  obtain ⟨st, m, h1, h2, h3⟩ := pushStyle_transform hv hs h
  rw [parseTransform_list [t] (by simpa using hl) (by intro c hc; simp at hc) hs] at h2
  refine ⟨st, by rw [h1, hs], ?_⟩
  rw [h3]
  refine nested_step hm hb ?_
  simp only [List.reverse_singleton, stepAll, Res.loop] at h2
  cases hr : readTransformAttr top.transform (t.name.map Char.toLower) t.nums with
  | ok m' => rw [hr] at h2; exact h2
  | err e => rw [hr] at h2; cases h2
  | panic e => rw [hr] at h2; cases h2
  | diverge => rw [hr] at h2; cases h2

/-- C22 for a child without a transform: it has its parent's. -/
theorem C22_inherited {attrs : List Attr} (hv : ∀ d ∈ decls attrs, d.1 ≠ "transform".toList) {c c' : Cursor ℝ}
    {top : PathStyle ℝ} {rest : List (PathStyle ℝ)} (hs : c.styleStack = top :: rest) (h : pushStyle attrs c = (.ok (), c')) :
    ∃ st, c'.styleStack = st :: top :: rest ∧ ∀ p, affine st.transform p = affine top.transform p := by
  obtain ⟨st, h1, h2⟩ := pushStyle_no_transform hv hs h
  exact ⟨st, by rw [h1, hs], fun p => by rw [h2]⟩

end Lists

end GoSvg

namespace GoSvg

open Spec

/-! ### Examples and witnesses -/

section Examples

attribute [local instance] asciiEnv
attribute [local instance] dummyLibm

/-- Numbers written in a list, in exact arithmetic. -/
theorem writes_real (l : GroupList) (h : l.WF) : WritesNumbers (l.numbers.map fun n => (n.value : ℝ)) l.text := by
  refine ⟨l, _, rfl, h, readAll_real _ fun n hn => ?_, ?_⟩
  · obtain ⟨i, hi, hn⟩ := List.mem_flatMap.1 hn
    have hw := (h.2.1 i hi).1
    rcases List.mem_cons.1 hn with rfl | hn
    · exact hw.first
    · exact (hw.more n hn).1
  · simp [Function.comp_def]

/-- A function written as `name(args)`. -/
def fnText (name args : String) (nums : List ℝ) : FnText ℝ := ⟨[], name.toList, [], args.toList, [], nums⟩

theorem fnText_wf {name args : String} {nums : List ℝ} (l : GroupList) (h : l.WF) (ht : l.text = args.toList)
    (hn : l.numbers.map (fun n => (n.value : ℝ)) = nums) (h1 : name.toList ≠ []) (h2 : ∀ c ∈ name.toList, c.isAlpha = true)
    (h3 : args.toList ≠ []) (h4 : '(' ∉ args.toList ∧ ')' ∉ args.toList) (h5 : ∀ c ∈ args.toList.getLast?, isSpace c = false) :
    (fnText name args nums).WF :=
  ⟨by simp [fnText, Blank], by simp [fnText, Blank], by simp [fnText, Blank], h1, h2, h3, h4, fun c hc => h5 c hc,
    by rw [← hn, fnText, ← ht]; exact writes_real l h⟩

theorem ex_translate : (fnText "translate" "1,2" [1, 2]).WF :=
  fnText_wf ⟨[int "" "1", int "," "2"], []⟩ (by decide +kernel) (by decide +kernel)
    (by simp [GroupList.numbers, Group.numbers, int, Spelling.value, Spelling.absValue, natVal])
    (by decide) (by decide) (by decide) (by decide) (by decide)

theorem ex_scale : (fnText "Scale" "2" [2]).WF :=
  fnText_wf ⟨[int "" "2"], []⟩ (by decide +kernel) (by decide +kernel)
    (by simp [GroupList.numbers, Group.numbers, int, Spelling.value, Spelling.absValue, natVal])
    (by decide) (by decide) (by decide) (by decide) (by decide)

theorem ex_rotate : (fnText "rotate" "180" [180]).WF :=
  fnText_wf ⟨[int "" "180"], []⟩ (by decide +kernel) (by decide +kernel)
    (by simp [GroupList.numbers, Group.numbers, int, Spelling.value, Spelling.absValue, natVal])
    (by decide) (by decide) (by decide) (by decide) (by decide)

theorem ex_rotate_about : (fnText "rotate" "180 1 2" [180, 1, 2]).WF :=
  fnText_wf ⟨[int "" "180", int " " "1", int " " "2"], []⟩ (by decide +kernel) (by decide +kernel)
    (by simp [GroupList.numbers, Group.numbers, int, Spelling.value, Spelling.absValue, natVal])
    (by decide) (by decide) (by decide) (by decide) (by decide)

theorem ex_translate_one : (fnText "translate" "2" [2]).WF :=
  fnText_wf ⟨[int "" "2"], []⟩ (by decide +kernel) (by decide +kernel)
    (by simp [GroupList.numbers, Group.numbers, int, Spelling.value, Spelling.absValue, natVal])
    (by decide) (by decide) (by decide) (by decide) (by decide)

/-- C21 covers `translate(1,2)Scale(2)rotate(180)`. -/
example {c c' : Cursor ℝ} (hs : c.styleStack = [defaultStyle])
    (h : pushStyle (attrsOf [("fill", "red"), ("transform", "translate(1,2)Scale(2)rotate(180)")]) c = (.ok (), c')) :
    ∃ st, c'.styleStack = [st, defaultStyle] ∧
      ∀ p, affine st.transform p = applyList [.translate 1 2, .scale 2 2, .rotate 180] p := by
  refine C21_transform_list_partial (l := [fnText "translate" "1,2" [1, 2], fnText "Scale" "2" [2], fnText "rotate" "180" [180]])
    ?_ (.cons (.translate (by decide)) (.cons (.scaleBoth (by decide)) (.cons (.rotate (by decide)) .nil)))
    ⟨?_, ?_⟩ ⟨[("fill".toList, "red".toList)], [], by decide +kernel, by simp⟩ hs rfl h
  · simp only [List.mem_cons, List.not_mem_nil, or_false, forall_eq_or_imp, forall_eq]
    exact ⟨ex_translate, ex_scale, ex_rotate⟩
  · simp only [List.dropLast, List.mem_cons, List.not_mem_nil, or_false, forall_eq_or_imp, forall_eq]
    exact ⟨.inl ⟨by decide, rfl⟩, .inr (by decide)⟩
  · intro t ht
    simp at ht
    subst ht
    exact .inr (.inl ⟨by decide, rfl⟩)

/-- The same attributes are accepted, over IEEE arithmetic too. -/
example : (pushStyle (attrsOf [("fill", "red"), ("transform", "translate(1,2)Scale(2)rotate(180)")])
    (initCursor (F := F64) .strict)).1 = .ok () := by decide +kernel

theorem lower_translate : List.map Char.toLower "translate".toList = "translate".toList := by decide
theorem lower_rotate : List.map Char.toLower "rotate".toList = "rotate".toList := by decide
theorem lower_matrix : List.map Char.toLower "matrix".toList = "matrix".toList := by decide

theorem read_translate (m : Matrix2D ℝ) (x y : ℝ) : readTransformAttr m "translate".toList [x, y] = .ok (m.translate x y) := rfl
theorem read_translate_one (m : Matrix2D ℝ) (x : ℝ) : readTransformAttr m "translate".toList [x] = .ok (m.translate x x) := rfl
theorem read_matrix (m : Matrix2D ℝ) (a b c d e f : ℝ) :
    readTransformAttr m "matrix".toList [a, b, c, d, e, f] = .ok (m.mult ⟨a, b, c, d, e, f⟩) := rfl

/-- The claim of C21 for one attribute value: it is accepted and means its list. -/
def C21Claim (l : List (FnText ℝ)) (fs : List Fn) : Prop :=
  ∀ (c : Cursor ℝ) (top : PathStyle ℝ) (rest : List (PathStyle ℝ)), c.styleStack = top :: rest → top.transform = Matrix2D.identity →
    ∃ m, (parseTransform (listText l []) c).1 = .ok m ∧ ∀ p, affine m p = applyList fs p

theorem claim_steps {l : List (FnText ℝ)} {fs : List Fn} (hl : ∀ t ∈ l, t.WF) (h : C21Claim l fs) {m : Matrix2D ℝ}
    (hm : stepAll Matrix2D.identity l.reverse = .ok m) : ∀ p, affine m p = applyList fs p := by
  obtain ⟨m', h1, h2⟩ := h (initCursor .ignore) defaultStyle [] rfl rfl
  rw [parseTransform_list l hl (by intro c hc; simp at hc) (top := defaultStyle) (rest := []) rfl] at h1
  have : Except.ok (ε := Unit) m = .ok m' := by
    rw [show (defaultStyle : PathStyle ℝ).transform = Matrix2D.identity from rfl, hm] at h1
    rw [Res.ok.inj h1]
  rw [Except.ok.inj this]; exact h2

/-- C21 is false for `translate` with one number: `translate(2)` also shifts down. -/
theorem C21_single_translate_false : ¬ ∀ l fs, (∀ t ∈ l, t.WF) → MeansList l fs → C21Claim l fs := by
  intro h
  have := claim_steps (by simpa using ex_translate_one)
    (h [fnText "translate" "2" [2]] [.translate 2 0] (by simpa using ex_translate_one) (.cons (.translateX (by decide)) .nil))
    (m := ⟨1, 0, 0, 1, 2, 2⟩) (by
      simp only [List.reverse_singleton, stepAll, Res.loop, fnText, lower_translate, read_translate_one]
      norm_num [Matrix2D.identity, Matrix2D.translate]) (0, 0)
  norm_num [affine, applyList, Fn.apply] at this

/-- C21 is false for rotations about a point: `rotate(180 1 2)` should leave the point (1, 2) alone. -/
theorem C21_rotate_about_false : ¬ ∀ l fs, (∀ t ∈ l, t.WF) → MeansList l fs → (∀ t ∈ l, t.nums.length ≠ 1) → C21Claim l fs := by
  intro h
  have hr : rad 180 = Real.pi := by unfold rad; field_simp
  have := claim_steps (by simpa using ex_rotate_about)
    (h [fnText "rotate" "180 1 2" [180, 1, 2]] [.rotateAbout 180 1 2] (by simpa using ex_rotate_about)
      (.cons (.rotateAbout (by decide)) .nil) (by simp [fnText]))
    (m := ⟨-1, 0, 0, -1, -2, -4⟩) (by
      simp only [List.reverse_singleton, stepAll, Res.loop, fnText, readTransformAttr, rad_eq, hr, lower_rotate]
      norm_num [Matrix2D.identity, Matrix2D.translate, Matrix2D.rotate, Matrix2D.mult]) (1, 2)
  norm_num [affine, applyList, Fn.apply, rot, hr] at this

/-- C21 is false when a matrix, a rotation or a skew stands left of another function: `matrix(1 1 0 1 0 0)translate(1,2)` should
send the origin to (1, 3) and sends it to (1, 2). -/
theorem C21_order_false : ¬ ∀ l fs, (∀ t ∈ l, t.WF) → MeansList l fs → (∀ t ∈ l, Basic t) → C21Claim l fs := by
  intro h
  have ex_matrix : (fnText "matrix" "1 1 0 1 0 0" [1, 1, 0, 1, 0, 0]).WF :=
    fnText_wf ⟨[int "" "1", int " " "1", int " " "0", int " " "1", int " " "0", int " " "0"], []⟩ (by decide +kernel)
      (by decide +kernel) (by simp [GroupList.numbers, Group.numbers, int, Spelling.value, Spelling.absValue, natVal])
      (by decide) (by decide) (by decide) (by decide) (by decide)
  have hwf : ∀ t ∈ [fnText "matrix" "1 1 0 1 0 0" [1, 1, 0, 1, 0, 0], fnText "translate" "1,2" [1, 2]], t.WF := by
    simp only [List.mem_cons, List.not_mem_nil, or_false, forall_eq_or_imp, forall_eq]
    exact ⟨ex_matrix, ex_translate⟩
  have := claim_steps hwf
    (h _ [.matrix ⟨1, 1, 0, 1, 0, 0⟩, .translate 1 2] hwf (.cons (.matrix (by decide)) (.cons (.translate (by decide)) .nil)) (by
      simp only [List.mem_cons, List.not_mem_nil, or_false, forall_eq_or_imp, forall_eq]
      exact ⟨.inr (.inr (.inr (.inr (by decide)))), .inl (.inl ⟨by decide, rfl⟩)⟩))
    (m := ⟨1, 1, 0, 1, 1, 2⟩) (by
      simp only [List.reverse_cons, List.reverse_nil, List.nil_append, List.singleton_append, stepAll, Res.loop, fnText, lower_translate, lower_matrix,
        read_translate, read_matrix]
      norm_num [Matrix2D.identity, Matrix2D.translate, Matrix2D.mult]) (0, 0)
  norm_num [affine, applyList, Fn.apply] at this

/-- C21 is false for lists with commas between the functions, which SVG allows: they are rejected. -/
theorem C21_comma_false : (pushStyle (attrsOf [("transform", "translate(1,2),scale(2)")]) (initCursor (F := F64) .ignore)).1
    = .err .paramMismatch := by decide +kernel

/-- C22 is false: inside a parent translated by (1, 2), a child with `Scale(2)` also scales the parent's translation. -/
theorem C22_nested_false : ¬ ∀ (attrs : List Attr) (t : FnText ℝ) (f : Fn) (c c' : Cursor ℝ) (top st : PathStyle ℝ) (rest : List (PathStyle ℝ)),
    t.WF → Means t.name t.nums f → Basic t → LastDecl attrs "transform" t.text → c.styleStack = top :: rest →
    pushStyle attrs c = (.ok (), c') → c'.styleStack = st :: top :: rest → ∀ p, affine st.transform p = affine top.transform (f.apply p) := by
  intro h
  let parent : PathStyle ℝ := { defaultStyle with transform := ⟨1, 0, 0, 1, 1, 2⟩ }
  let c : Cursor ℝ := { initCursor .ignore with styleStack := [parent] }
  have hd : decls (attrsOf [("transform", "Scale(2)")]) = [("transform".toList, "Scale(2)".toList)] := by decide +kernel
  have hv : LastDecl (attrsOf [("transform", "Scale(2)")]) "transform" (fnText "Scale" "2" [2]).text :=
    ⟨[], [], by rw [hd]; simp [fnText, FnText.text], by simp⟩
  have hm : Means (fnText "Scale" "2" [2]).name (fnText "Scale" "2" [2]).nums (.scale 2 2) := .scaleBoth (by decide)
  have hp : ∃ c', pushStyle (attrsOf [("transform", "Scale(2)")]) c = (.ok (), c') := by
    rw [pushStyle_decls, hd]
    simp only [c]
    rw [SM.bind_run, declLoop, SM.bind_run, readStyleAttr_eff, styleEff_transform.2 rfl, runEff, SM.bind_run]
    have h2 := C21_accepted (l := [fnText "Scale" "2" [2]]) (by simpa using ex_scale) (.cons hm .nil) (c := c) (top := parent)
      (rest := []) rfl (last := []) (by intro c hc; simp at hc)
    obtain ⟨m, h2⟩ := h2
    have e : listText [fnText "Scale" "2" [2]] [] = "Scale(2)".toList := by simp [listText, fnText, FnText.text]
    rw [e] at h2
    obtain ⟨r, g, -, hg⟩ := parseTransform_frame (F := ℝ) "Scale(2)".toList parent.transform
    have h3 := hg c parent [] rfl rfl
    rw [h3] at h2
    dsimp only at h2
    subst h2
    rw [h3]
    exact ⟨_, rfl⟩
  obtain ⟨c', hp⟩ := hp
  obtain ⟨st, h1, h2⟩ := C22_nested_partial ex_scale hm (.inl (.inr (by decide))) hv (c := c) (top := parent) (rest := []) rfl hp
  have := h2.1 (h _ _ _ c c' parent st [] ex_scale hm (.inl (.inr (by decide))) hv rfl hp h1)
  norm_num [Composes, parent] at this

/-- C22 covers, for instance, a rotated child in a scaled parent. -/
example : Composes ⟨3, 0, 0, 2, 0, 0⟩ (.rotate 30) := by simp [Composes]

end Examples

end GoSvg
