import Verif.Lemmas.Cascade
import Verif.Lemmas.Defs
import Verif.Lemmas.Attrs
import Verif.Spec.Gradients
import Verif.Props.Numbers

/-! What is in the table of gradients. -/

set_option linter.unusedSectionVars false

namespace GoSvg

open Spec

variable {F : Type} [GoFloat F] [GoEnv]

open SM (get modify throw lift panic diverge forEach)

/-! ### The text -/

theorem gradientsFrom_snoc (t : Token) : ∀ (ts before : List Token) (s : List GradientText × Bool),
    gradientsFrom before s (ts ++ [t]) = noteGradient (before ++ ts) (gradientsFrom before s ts) t
  | [], before, s => by simp [gradientsFrom]
  | x :: ts, before, s => by
    rw [List.cons_append, gradientsFrom, gradientsFrom_snoc t ts, gradientsFrom, List.append_assoc]; rfl

theorem gradientsIn_snoc (ts : List Token) (t : Token) : gradientsIn (ts ++ [t]) = noteGradient ts (gradientsIn ts) t :=
  gradientsFrom_snoc t ts [] _

theorem framesFrom_snoc (t : Token) : ∀ (ts before : List Token) (fr : List (List Token × Elem)),
    framesFrom before fr (ts ++ [t]) = noteFrame (before ++ ts) (framesFrom before fr ts) t
  | [], before, fr => by simp [framesFrom]
  | x :: ts, before, fr => by
    rw [List.cons_append, framesFrom, framesFrom_snoc t ts, framesFrom, List.append_assoc]; rfl

theorem framesOf_snoc (ts : List Token) (t : Token) : framesOf (ts ++ [t]) = noteFrame ts (framesOf ts) t := framesFrom_snoc t ts [] []

theorem valuesNamed_snoc (n : String) (as : List Attr) (a : Attr) :
    valuesNamed n (as ++ [a]) = valuesNamed n as ++ if a.name = n.toList then [a.value] else [] := by
  unfold valuesNamed
  rw [List.filter_append, List.map_append]
  congr 1
  by_cases h : a.name = n.toList <;> simp [h]

theorem valuesNamed_snoc_ne {n : String} {a : Attr} (h : a.name ≠ n.toList) (as : List Attr) :
    valuesNamed n (as ++ [a]) = valuesNamed n as := by
  rw [valuesNamed_snoc, if_neg h, List.append_nil]

theorem valuesNamed_snoc_eq {n : String} {a : Attr} (h : a.name = n.toList) (as : List Attr) :
    valuesNamed n (as ++ [a]) = valuesNamed n as ++ [a.value] := by
  rw [valuesNamed_snoc, if_pos h]

/-! ### Loops over attributes -/

/-- What holds of the attributes read so far. -/
theorem attrLoop_inv {β : Type} {step : β → Attr → CM F β} {P : List Attr → β → Cursor F → Prop}
    (h : ∀ done b c a b' c', P done b c → step b a c = (.ok b', c') → P (done ++ [a]) b' c') :
    ∀ (as done : List Attr) (b : β) (c : Cursor F) (b' : β) (c' : Cursor F), P done b c → attrLoop step b as c = (.ok b', c') →
      P (done ++ as) b' c'
  | [], done, b, c, b', c', hp, hr => by cases hr; rwa [List.append_nil]
  | a :: as, done, b, c, b', c', hp, hr => by
    rw [attrLoop, SM.bind_run] at hr
    rcases h1 : step b a c with ⟨r, c1⟩
    rw [h1] at hr
    cases r with
    | ok b1 =>
      have := attrLoop_inv h as (done ++ [a]) b1 c1 b' c' (h _ _ _ _ _ _ hp h1) hr
      rwa [List.append_assoc] at this
    | err e => cases hr
    | panic s => cases hr
    | diverge => cases hr

theorem resLoop_inv {β : Type} {step : β → Attr → Res β} {P : List Attr → β → Prop}
    (h : ∀ done b a b', P done b → step b a = .ok b' → P (done ++ [a]) b') :
    ∀ (as done : List Attr) (b b' : β), P done b → Res.loop step b as = .ok b' → P (done ++ as) b'
  | [], done, b, b', hp, hr => by cases hr; rwa [List.append_nil]
  | a :: as, done, b, b', hp, hr => by
    rw [Res.loop] at hr
    cases h1 : step b a with
    | ok b1 =>
      rw [h1] at hr
      have := resLoop_inv h as (done ++ [a]) b1 b' (h _ _ _ _ hp h1) hr
      rwa [List.append_assoc] at this
    | err e => rw [h1] at hr; cases hr
    | panic s => rw [h1] at hr; cases hr
    | diverge => rw [h1] at hr; cases hr

/-! ### Gradient elements -/

/-- `m` is what the last of the texts makes of the transform `top`. -/
def MatrixRead (top : Option (Matrix2D F)) (vs : List Str) (m : Matrix2D F) : Prop :=
  match vs.getLast? with
  | none => m = Matrix2D.identity
  | some v => ∃ b, top = some b ∧ ∀ (c : Cursor F) t r, c.styleStack = t :: r → t.transform = b → (parseTransform v c).1 = .ok m

/-- The innermost transform. -/
def topTransform (c : Cursor F) : Option (Matrix2D F) := c.styleStack.head?.map (·.transform)

theorem matrixRead_none {top : Option (Matrix2D F)} {vs : List Str} {m : Matrix2D F} (h : MatrixRead top vs m) (hv : vs = []) :
    m = Matrix2D.identity := by subst hv; exact h

theorem matrixRead_last {vs : List Str} {m : Matrix2D F} (h : MatrixRead (some Matrix2D.identity) vs m) {v : Str}
    (hv : vs.getLast? = some v) : (parseTransform v (initCursor (F := F) 0)).1 = .ok m := by
  unfold MatrixRead at h
  rw [hv] at h
  obtain ⟨b, hb, h⟩ := h
  cases hb
  exact h _ defaultStyle [] rfl rfl

/-- In the attributes of a gradient: the gradient being read is the last of the heap. -/
structure GradRead (h0 : List (Gradient F)) (grads : GoMap Nat) (vb : Bounds F) (done : List Attr) (c : Cursor F) : Prop where
  grad : c.grad = some h0.length
  heap : ∃ g, c.svg.gradHeap = h0 ++ [g] ∧ g.direction = none ∧ g.stops = [] ∧ g.bounds = vb ∧ g.units = unitsOf done ∧
    g.spread = spreadOf done ∧ MatrixRead (topTransform c) (valuesNamed "gradientTransform" done) g.matrix
  names : ∀ id, c.svg.grads.find id = if id ∈ valuesNamed "id" done then some h0.length else grads.find id

theorem modify_last {α : Type} (l : List α) (x : α) (f : α → α) : (l ++ [x]).modify l.length f = l ++ [f x] := by
  induction l with
  | nil => rfl
  | cons y l ih => rw [List.cons_append, List.length_cons, List.modify_succ_cons, ih]; rfl

theorem modifyGrad_last {c : Cursor F} {heap : List (Gradient F)} {g : Gradient F} (hc : c.grad = some heap.length)
    (hh : c.svg.gradHeap = heap ++ [g]) (f : Gradient F → Gradient F) :
    modifyGrad f c = (.ok (), { c with svg := { c.svg with gradHeap := heap ++ [f g] } }) := by
  unfold modifyGrad
  rw [hc]
  dsimp only
  rw [hh, modify_last]

theorem unitsOf_snoc_ne {a : Attr} (h : a.name ≠ "gradientUnits".toList) (as : List Attr) : unitsOf (as ++ [a]) = unitsOf as := by
  unfold unitsOf; rw [valuesNamed_snoc_ne h]

theorem spreadOf_snoc_ne {a : Attr} (h : a.name ≠ "spreadMethod".toList) (as : List Attr) : spreadOf (as ++ [a]) = spreadOf as := by
  unfold spreadOf; rw [valuesNamed_snoc_ne h]

theorem lastSome_snoc {α β : Type} (f : α → Option β) (l : List α) (v : α) (d : β) :
    (((l ++ [v]).filterMap f).getLast?).getD d = (f v).getD (((l.filterMap f).getLast?).getD d) := by
  rw [List.filterMap_append]
  cases h : f v with
  | none => rw [List.filterMap_cons_none h]; simp
  | some x => rw [List.filterMap_cons_some h]; simp

theorem lookup_ne {β : Type} {k k' : Str} (h : k ≠ k') (v : β) (l : List (Str × β)) : ((k', v) :: l).lookup k = l.lookup k := by
  rw [List.lookup_cons, show (k == k') = false by simpa using h]

theorem unitsOf_snoc {a : Attr} (h : a.name = "gradientUnits".toList) (as : List Attr) : unitsOf (as ++ [a]) =
    if trimSpace a.value = "userSpaceOnUse".toList then .userSpaceOnUse
    else if trimSpace a.value = "objectBoundingBox".toList then .objectBoundingBox else unitsOf as := by
  unfold unitsOf
  rw [valuesNamed_snoc_eq h, lastSome_snoc]
  by_cases h1 : trimSpace a.value = "userSpaceOnUse".toList
  · rw [if_pos h1, h1]; rfl
  rw [if_neg h1, unitWords, lookup_ne h1]
  by_cases h2 : trimSpace a.value = "objectBoundingBox".toList
  · rw [if_pos h2, h2]; rfl
  rw [if_neg h2, lookup_ne h2]; rfl

theorem spreadOf_snoc {a : Attr} (h : a.name = "spreadMethod".toList) (as : List Attr) : spreadOf (as ++ [a]) =
    if trimSpace a.value = "pad".toList then .pad
    else if trimSpace a.value = "reflect".toList then .reflect
    else if trimSpace a.value = "repeat".toList then .repeat else spreadOf as := by
  unfold spreadOf
  rw [valuesNamed_snoc_eq h, lastSome_snoc]
  by_cases h1 : trimSpace a.value = "pad".toList
  · rw [if_pos h1, h1]; rfl
  rw [if_neg h1, spreadWords, lookup_ne h1]
  by_cases h2 : trimSpace a.value = "reflect".toList
  · rw [if_pos h2, h2]; rfl
  rw [if_neg h2, lookup_ne h2]
  by_cases h3 : trimSpace a.value = "repeat".toList
  · rw [if_pos h3, h3]; rfl
  rw [if_neg h3, lookup_ne h3]; rfl

section

variable {heap : List (Gradient F)} {grads : GoMap Nat} {vb : Bounds F} {done : List Attr} {c c' : Cursor F}

/-- An attribute that is neither a name nor one of the common attributes. -/
theorem gradRead_other {a : Attr} (h : GradRead heap grads vb done c) (h1 : a.name ≠ "id".toList) (h2 : a.name ≠ "gradientUnits".toList)
    (h3 : a.name ≠ "spreadMethod".toList) (h4 : a.name ≠ "gradientTransform".toList) : GradRead heap grads vb (done ++ [a]) c := by
  obtain ⟨hg, ⟨g, e1, e2, e3, e4, e5, e6, e7⟩, hn⟩ := h
  refine ⟨hg, ⟨g, e1, e2, e3, e4, ?_, ?_, ?_⟩, fun id => ?_⟩
  · rw [unitsOf_snoc_ne h2]; exact e5
  · rw [spreadOf_snoc_ne h3]; exact e6
  · rw [valuesNamed_snoc_ne h4]; exact e7
  · rw [valuesNamed_snoc_ne h1]; exact hn id

theorem gradRead_id {a : Attr} (h : GradRead heap grads vb done c) (h1 : a.name = "id".toList) {u : Unit}
    (hr : setGradID a.value c = (.ok u, c')) : GradRead heap grads vb (done ++ [a]) c' := by
  obtain ⟨hg, ⟨g, e1, e2, e3, e4, e5, e6, e7⟩, hn⟩ := h
  have hset : setGradID a.value c = (.ok (), { c with svg := { c.svg with grads := c.svg.grads.insert a.value heap.length } }) := by
    unfold setGradID; rw [hg]
  rw [hset] at hr
  cases hr
  refine ⟨hg, ⟨g, e1, e2, e3, e4, ?_, ?_, ?_⟩, fun id => ?_⟩
  · rw [unitsOf_snoc_ne (by rw [h1]; decide)]; exact e5
  · rw [spreadOf_snoc_ne (by rw [h1]; decide)]; exact e6
  · rw [valuesNamed_snoc_ne (by rw [h1]; decide)]; exact e7
  · rw [valuesNamed_snoc_eq h1]
    dsimp only
    by_cases hid : id = a.value
    · rw [hid, find_insert_self, if_pos (by simp)]
    · rw [find_insert_ne _ hid, hn id]
      simp [hid]

theorem gradRead_common {a : Attr} (h : GradRead heap grads vb done c) (h1 : a.name ≠ "id".toList) {u : Unit}
    (hr : readGradAttr a c = (.ok u, c')) : GradRead heap grads vb (done ++ [a]) c' := by
  have hh := h
  obtain ⟨hg, ⟨g, e1, e2, e3, e4, e5, e6, e7⟩, hn⟩ := h
  have hn' : ∀ id, c.svg.grads.find id = if id ∈ valuesNamed "id" (done ++ [a]) then some heap.length else grads.find id := by
    intro id; rw [valuesNamed_snoc_ne h1]; exact hn id
  unfold readGradAttr at hr
  by_cases k1 : a.name = "gradientTransform".toList
  · rw [if_pos k1, SM.bind_run] at hr
    have hf : ∀ r c1, parseTransform a.value c = (r, c1) → (∃ ps, c1 = setPoints ps c) ∧
        ∀ m, r = .ok m → MatrixRead (topTransform c) (valuesNamed "gradientTransform" done ++ [a.value]) m := by
      intro r c1 hp
      cases hs : c.styleStack with
      | nil =>
        rw [show parseTransform a.value c = (.panic .styleStack, c) by rw [parseTransform, SM.bind_run, SM.get_run]; simp only [hs]; rfl] at hp
        cases hp
        exact ⟨⟨c.pc.points, rfl⟩, fun m h => by cases h⟩
      | cons top rest =>
        obtain ⟨r', g, -, h2⟩ := parseTransform_frame (F := F) a.value top.transform
        rw [h2 c top rest hs rfl] at hp
        cases hp
        refine ⟨⟨_, rfl⟩, fun m hm => ?_⟩
        subst hm
        unfold MatrixRead
        rw [List.getLast?_concat]
        exact ⟨top.transform, by rw [topTransform, hs]; rfl, fun d t r hd ht => by rw [h2 d t r hd ht]⟩
    rcases hp : parseTransform a.value c with ⟨r, c1⟩
    obtain ⟨⟨ps, rfl⟩, hM⟩ := hf r c1 hp
    rw [hp] at hr
    cases r with
    | ok m =>
      dsimp only at hr
      rw [modifyGrad_last (c := setPoints ps c) hg e1] at hr
      cases hr
      refine ⟨hg, ⟨_, rfl, e2, e3, e4, ?_, ?_, ?_⟩, hn'⟩
      · rw [unitsOf_snoc_ne (by rw [k1]; decide)]; exact e5
      · rw [spreadOf_snoc_ne (by rw [k1]; decide)]; exact e6
      · rw [valuesNamed_snoc_eq k1]; exact hM m rfl
    | err e => cases hr
    | panic s => cases hr
    | diverge => cases hr
  rw [if_neg k1] at hr
  by_cases k2 : a.name = "gradientUnits".toList
  · rw [if_pos k2] at hr
    have hs := spreadOf_snoc_ne (a := a) (by rw [k2]; decide) done
    have hm : valuesNamed "gradientTransform" (done ++ [a]) = _ := valuesNamed_snoc_ne (by rw [k2]; decide) done
    have hu := unitsOf_snoc k2 done
    by_cases q1 : trimSpace a.value = "userSpaceOnUse".toList
    · rw [if_pos q1] at hr hu
      rw [modifyGrad_last hg e1] at hr
      cases hr
      exact ⟨hg, ⟨_, rfl, e2, e3, e4, hu.symm, by rw [hs]; exact e6, by rw [hm]; exact e7⟩, hn'⟩
    rw [if_neg q1] at hr hu
    by_cases q2 : trimSpace a.value = "objectBoundingBox".toList
    · rw [if_pos q2] at hr hu
      rw [modifyGrad_last hg e1] at hr
      cases hr
      exact ⟨hg, ⟨_, rfl, e2, e3, e4, hu.symm, by rw [hs]; exact e6, by rw [hm]; exact e7⟩, hn'⟩
    rw [if_neg q2] at hr hu
    cases hr
    exact ⟨hg, ⟨g, e1, e2, e3, e4, by rw [hu]; exact e5, by rw [hs]; exact e6, by rw [hm]; exact e7⟩, hn'⟩
  rw [if_neg k2] at hr
  by_cases k3 : a.name = "spreadMethod".toList
  · rw [if_pos k3] at hr
    have hs := unitsOf_snoc_ne (a := a) (by rw [k3]; decide) done
    have hm : valuesNamed "gradientTransform" (done ++ [a]) = _ := valuesNamed_snoc_ne (by rw [k3]; decide) done
    have hu := spreadOf_snoc k3 done
    by_cases q1 : trimSpace a.value = "pad".toList
    · rw [if_pos q1] at hr hu
      rw [modifyGrad_last hg e1] at hr
      cases hr
      exact ⟨hg, ⟨_, rfl, e2, e3, e4, by rw [hs]; exact e5, hu.symm, by rw [hm]; exact e7⟩, hn'⟩
    rw [if_neg q1] at hr hu
    by_cases q2 : trimSpace a.value = "reflect".toList
    · rw [if_pos q2] at hr hu
      rw [modifyGrad_last hg e1] at hr
      cases hr
      exact ⟨hg, ⟨_, rfl, e2, e3, e4, by rw [hs]; exact e5, hu.symm, by rw [hm]; exact e7⟩, hn'⟩
    rw [if_neg q2] at hr hu
    by_cases q3 : trimSpace a.value = "repeat".toList
    · rw [if_pos q3] at hr hu
      rw [modifyGrad_last hg e1] at hr
      cases hr
      exact ⟨hg, ⟨_, rfl, e2, e3, e4, by rw [hs]; exact e5, hu.symm, by rw [hm]; exact e7⟩, hn'⟩
    rw [if_neg q3] at hr hu
    cases hr
    exact ⟨hg, ⟨g, e1, e2, e3, e4, by rw [hs]; exact e5, by rw [hu]; exact e6, by rw [hm]; exact e7⟩, hn'⟩
  rw [if_neg k3] at hr
  cases hr
  exact gradRead_other hh h1 k2 k3 k1

end

/-- The last value of an attribute, or a default. -/
theorem last_snoc_eq {n : String} {a : Attr} (h : a.name = n.toList) (as : List Attr) (d : Str) :
    a.value = (valuesNamed n (as ++ [a])).getLast?.getD d := by rw [valuesNamed_snoc_eq h]; simp

theorem last_snoc_ne {n : String} {a : Attr} (h : a.name ≠ n.toList) {as : List Attr} {s d : Str}
    (hs : s = (valuesNamed n as).getLast?.getD d) : s = (valuesNamed n (as ++ [a])).getLast?.getD d := by rw [valuesNamed_snoc_ne h]; exact hs

structure LinRead (done : List Attr) (d : LinStrs) : Prop where
  x1 : d.x1 = (valuesNamed "x1" done).getLast?.getD "0%".toList
  y1 : d.y1 = (valuesNamed "y1" done).getLast?.getD "0%".toList
  x2 : d.x2 = (valuesNamed "x2" done).getLast?.getD "100%".toList
  y2 : d.y2 = (valuesNamed "y2" done).getLast?.getD "0".toList

theorem linRead_other {done : List Attr} {d : LinStrs} {a : Attr} (h : LinRead done d) (h1 : a.name ≠ "x1".toList) (h2 : a.name ≠ "y1".toList)
    (h3 : a.name ≠ "x2".toList) (h4 : a.name ≠ "y2".toList) : LinRead (done ++ [a]) d :=
  ⟨last_snoc_ne h1 h.x1, last_snoc_ne h2 h.y1, last_snoc_ne h3 h.x2, last_snoc_ne h4 h.y2⟩

theorem bind_pure_inv {α β : Type} {m : CM F α} {b b' : β} {c c' : Cursor F} (h : (m >>= fun _ => pure b) c = (.ok b', c')) :
    ∃ a, m c = (.ok a, c') ∧ b' = b := by
  rw [SM.bind_run] at h
  rcases hr : m c with ⟨r, c1⟩
  rw [hr] at h
  cases r with
  | ok a => cases h; exact ⟨a, rfl, rfl⟩
  | err e => cases h
  | panic s => cases h
  | diverge => cases h

theorem linAttr_read {heap : List (Gradient F)} {grads : GoMap Nat} {vb : Bounds F} (done : List Attr) (d : LinStrs) (c : Cursor F) (a : Attr)
    (d' : LinStrs) (c' : Cursor F) (h : GradRead heap grads vb done c ∧ LinRead done d) (hr : linAttr d a c = (.ok d', c')) :
    GradRead heap grads vb (done ++ [a]) c' ∧ LinRead (done ++ [a]) d' := by
  obtain ⟨hg, hl⟩ := h
  unfold linAttr at hr
  by_cases k0 : a.name = "id".toList
  · rw [if_pos k0] at hr
    obtain ⟨u, h1, rfl⟩ := bind_pure_inv hr
    exact ⟨gradRead_id hg k0 h1, linRead_other hl (by rw [k0]; decide) (by rw [k0]; decide) (by rw [k0]; decide) (by rw [k0]; decide)⟩
  rw [if_neg k0] at hr
  by_cases k1 : a.name = "x1".toList
  · rw [if_pos k1] at hr; cases hr
    exact ⟨gradRead_other hg k0 (by rw [k1]; decide) (by rw [k1]; decide) (by rw [k1]; decide), last_snoc_eq k1 _ _,
      last_snoc_ne (by rw [k1]; decide) hl.y1, last_snoc_ne (by rw [k1]; decide) hl.x2, last_snoc_ne (by rw [k1]; decide) hl.y2⟩
  rw [if_neg k1] at hr
  by_cases k2 : a.name = "y1".toList
  · rw [if_pos k2] at hr; cases hr
    exact ⟨gradRead_other hg k0 (by rw [k2]; decide) (by rw [k2]; decide) (by rw [k2]; decide), last_snoc_ne k1 hl.x1,
      last_snoc_eq k2 _ _, last_snoc_ne (by rw [k2]; decide) hl.x2, last_snoc_ne (by rw [k2]; decide) hl.y2⟩
  rw [if_neg k2] at hr
  by_cases k3 : a.name = "x2".toList
  · rw [if_pos k3] at hr; cases hr
    exact ⟨gradRead_other hg k0 (by rw [k3]; decide) (by rw [k3]; decide) (by rw [k3]; decide), last_snoc_ne k1 hl.x1,
      last_snoc_ne k2 hl.y1, last_snoc_eq k3 _ _, last_snoc_ne (by rw [k3]; decide) hl.y2⟩
  rw [if_neg k3] at hr
  by_cases k4 : a.name = "y2".toList
  · rw [if_pos k4] at hr; cases hr
    exact ⟨gradRead_other hg k0 (by rw [k4]; decide) (by rw [k4]; decide) (by rw [k4]; decide), last_snoc_ne k1 hl.x1,
      last_snoc_ne k2 hl.y1, last_snoc_ne k3 hl.x2, last_snoc_eq k4 _ _⟩
  rw [if_neg k4] at hr
  obtain ⟨u, h1, rfl⟩ := bind_pure_inv hr
  exact ⟨gradRead_common hg k0 h1, linRead_other hl k1 k2 k3 k4⟩

/-- The two flags and six strings of a radial gradient. -/
structure RadRead (done : List Attr) (d : RadStrs) : Prop where
  cx : d.cx = (valuesNamed "cx" done).getLast?.getD "50%".toList
  cy : d.cy = (valuesNamed "cy" done).getLast?.getD "50%".toList
  fx : (if d.setFx then some d.fx else none) = (valuesNamed "fx" done).getLast?
  fy : (if d.setFy then some d.fy else none) = (valuesNamed "fy" done).getLast?
  r : d.r = (valuesNamed "r" done).getLast?.getD "50%".toList
  fr : d.fr = (valuesNamed "fr" done).getLast?.getD "50%".toList

theorem radRead_other {done : List Attr} {d : RadStrs} {a : Attr} (h : RadRead done d) (h1 : a.name ≠ "cx".toList) (h2 : a.name ≠ "cy".toList)
    (h3 : a.name ≠ "fx".toList) (h4 : a.name ≠ "fy".toList) (h5 : a.name ≠ "r".toList) (h6 : a.name ≠ "fr".toList) : RadRead (done ++ [a]) d :=
  ⟨last_snoc_ne h1 h.cx, last_snoc_ne h2 h.cy, by rw [valuesNamed_snoc_ne h3]; exact h.fx, by rw [valuesNamed_snoc_ne h4]; exact h.fy,
    last_snoc_ne h5 h.r, last_snoc_ne h6 h.fr⟩

theorem radAttr_read {heap : List (Gradient F)} {grads : GoMap Nat} {vb : Bounds F} (done : List Attr) (d : RadStrs) (c : Cursor F) (a : Attr)
    (d' : RadStrs) (c' : Cursor F) (h : GradRead heap grads vb done c ∧ RadRead done d) (hr : radAttr d a c = (.ok d', c')) :
    GradRead heap grads vb (done ++ [a]) c' ∧ RadRead (done ++ [a]) d' := by
  obtain ⟨hg, hl⟩ := h
  unfold radAttr at hr
  have hne : ∀ {n m : String}, a.name = n.toList → n.toList ≠ m.toList → a.name ≠ m.toList := fun h h' => by rw [h]; exact h'
  by_cases k0 : a.name = "id".toList
  · rw [if_pos k0] at hr
    obtain ⟨u, h1, rfl⟩ := bind_pure_inv hr
    exact ⟨gradRead_id hg k0 h1, radRead_other hl (hne k0 (by decide)) (hne k0 (by decide)) (hne k0 (by decide)) (hne k0 (by decide))
      (hne k0 (by decide)) (hne k0 (by decide))⟩
  rw [if_neg k0] at hr
  by_cases k1 : a.name = "cx".toList
  · rw [if_pos k1] at hr; cases hr
    exact ⟨gradRead_other hg k0 (hne k1 (by decide)) (hne k1 (by decide)) (hne k1 (by decide)), last_snoc_eq k1 _ _,
      last_snoc_ne (hne k1 (by decide)) hl.cy, by rw [valuesNamed_snoc_ne (hne k1 (by decide))]; exact hl.fx,
      by rw [valuesNamed_snoc_ne (hne k1 (by decide))]; exact hl.fy, last_snoc_ne (hne k1 (by decide)) hl.r, last_snoc_ne (hne k1 (by decide)) hl.fr⟩
  rw [if_neg k1] at hr
  by_cases k2 : a.name = "cy".toList
  · rw [if_pos k2] at hr; cases hr
    exact ⟨gradRead_other hg k0 (hne k2 (by decide)) (hne k2 (by decide)) (hne k2 (by decide)), last_snoc_ne k1 hl.cx,
      last_snoc_eq k2 _ _, by rw [valuesNamed_snoc_ne (hne k2 (by decide))]; exact hl.fx,
      by rw [valuesNamed_snoc_ne (hne k2 (by decide))]; exact hl.fy, last_snoc_ne (hne k2 (by decide)) hl.r, last_snoc_ne (hne k2 (by decide)) hl.fr⟩
  rw [if_neg k2] at hr
  by_cases k3 : a.name = "fx".toList
  · rw [if_pos k3] at hr; cases hr
    exact ⟨gradRead_other hg k0 (hne k3 (by decide)) (hne k3 (by decide)) (hne k3 (by decide)), last_snoc_ne k1 hl.cx,
      last_snoc_ne k2 hl.cy, by rw [valuesNamed_snoc_eq k3]; simp,
      by rw [valuesNamed_snoc_ne (hne k3 (by decide))]; exact hl.fy, last_snoc_ne (hne k3 (by decide)) hl.r, last_snoc_ne (hne k3 (by decide)) hl.fr⟩
  rw [if_neg k3] at hr
  by_cases k4 : a.name = "fy".toList
  · rw [if_pos k4] at hr; cases hr
    exact ⟨gradRead_other hg k0 (hne k4 (by decide)) (hne k4 (by decide)) (hne k4 (by decide)), last_snoc_ne k1 hl.cx,
      last_snoc_ne k2 hl.cy, by rw [valuesNamed_snoc_ne k3]; exact hl.fx, by rw [valuesNamed_snoc_eq k4]; simp,
      last_snoc_ne (hne k4 (by decide)) hl.r, last_snoc_ne (hne k4 (by decide)) hl.fr⟩
  rw [if_neg k4] at hr
  by_cases k5 : a.name = "r".toList
  · rw [if_pos k5] at hr; cases hr
    exact ⟨gradRead_other hg k0 (hne k5 (by decide)) (hne k5 (by decide)) (hne k5 (by decide)), last_snoc_ne k1 hl.cx,
      last_snoc_ne k2 hl.cy, by rw [valuesNamed_snoc_ne k3]; exact hl.fx, by rw [valuesNamed_snoc_ne k4]; exact hl.fy,
      last_snoc_eq k5 _ _, last_snoc_ne (hne k5 (by decide)) hl.fr⟩
  rw [if_neg k5] at hr
  by_cases k6 : a.name = "fr".toList
  · rw [if_pos k6] at hr; cases hr
    exact ⟨gradRead_other hg k0 (hne k6 (by decide)) (hne k6 (by decide)) (hne k6 (by decide)), last_snoc_ne k1 hl.cx,
      last_snoc_ne k2 hl.cy, by rw [valuesNamed_snoc_ne k3]; exact hl.fx, by rw [valuesNamed_snoc_ne k4]; exact hl.fy,
      last_snoc_ne k5 hl.r, last_snoc_eq k6 _ _⟩
  rw [if_neg k6] at hr
  obtain ⟨u, h1, rfl⟩ := bind_pure_inv hr
  exact ⟨gradRead_common hg k0 h1, radRead_other hl k1 k2 k3 k4 k5 k6⟩

theorem gradRead_new (c : Cursor F) : GradRead c.svg.gradHeap c.svg.grads c.svg.viewBox [] (withNewGrad c) :=
  ⟨rfl, ⟨_, rfl, rfl, rfl, rfl, rfl, rfl, rfl⟩, fun _ => rfl⟩

/-- After the start tag of a gradient. -/
structure GradStarted (name : Str) (attrs : List Attr) (c c' : Cursor F) : Prop where
  grad : c'.grad = some c.svg.gradHeap.length
  heap : ∃ g, c'.svg.gradHeap = c.svg.gradHeap ++ [g] ∧ (∃ d, g.direction = some d) ∧ ∀ before,
    ((⟨before, name, attrs, []⟩ : GradientText).Untransformed → topTransform c' = some Matrix2D.identity) →
      GradientOf c.svg.viewBox ⟨before, name, attrs, []⟩ g
  names : ∀ id, c'.svg.grads.find id = if id ∈ valuesNamed "id" attrs then some c.svg.gradHeap.length else c.svg.grads.find id

theorem bind_inv {α β : Type} {m : CM F α} {f : α → CM F β} {b : β} {c c' : Cursor F} (h : (m >>= f) c = (.ok b, c')) :
    ∃ a c1, m c = (.ok a, c1) ∧ f a c1 = (.ok b, c') := by
  rw [SM.bind_run] at h
  rcases hr : m c with ⟨r, c1⟩
  rw [hr] at h
  cases r with
  | ok a => exact ⟨a, c1, rfl, h⟩
  | err e => cases h
  | panic s => cases h
  | diverge => cases h

theorem lift_inv {α : Type} {m : Res α} {a : α} {c c' : Cursor F} (h : (lift m : CM F α) c = (.ok a, c')) : m = .ok a ∧ c' = c := by
  rw [SM.lift_run] at h; cases h; exact ⟨rfl, rfl⟩

theorem currentGrad_last {c : Cursor F} {heap : List (Gradient F)} {g : Gradient F} (hc : c.grad = some heap.length)
    (hh : c.svg.gradHeap = heap ++ [g]) : currentGrad c = (.ok g, c) := by
  unfold currentGrad
  rw [hc, hh]
  simp

theorem gradBox_eq (g : Gradient F) : gradBox g = percentBox g.units g.bounds := rfl

theorem linearGradientF_ok {attrs : List Attr} {c c' : Cursor F} {u : Unit} (h : linearGradientF attrs c = (.ok u, c')) :
    GradStarted "linearGradient".toList attrs c c' := by
  unfold linearGradientF at h
  obtain ⟨_, c0, h0, k0⟩ := bind_inv h
  rw [newGrad_run] at h0
  cases h0
  obtain ⟨d, c1, h1, k1⟩ := bind_inv k0
  obtain ⟨hg, hl⟩ := attrLoop_inv (P := fun done d c1 => GradRead c.svg.gradHeap c.svg.grads c.svg.viewBox done c1 ∧ LinRead done d)
    linAttr_read attrs [] _ _ _ _ ⟨gradRead_new c, ⟨rfl, rfl, rfl, rfl⟩⟩ h1
  rw [List.nil_append] at hg hl
  obtain ⟨hgr, ⟨g, e1, e2, e3, e4, e5, e6, e7⟩, hn⟩ := hg
  obtain ⟨g', c2, h2, k2⟩ := bind_inv k1
  rw [currentGrad_last hgr e1] at h2
  cases h2
  obtain ⟨x1, c2, h2, k3⟩ := bind_inv k2
  obtain ⟨hx1, rfl⟩ := lift_inv h2
  obtain ⟨y1, c2, h2, k4⟩ := bind_inv k3
  obtain ⟨hy1, rfl⟩ := lift_inv h2
  obtain ⟨x2, c2, h2, k5⟩ := bind_inv k4
  obtain ⟨hx2, rfl⟩ := lift_inv h2
  obtain ⟨y2, c2, h2, k6⟩ := bind_inv k5
  obtain ⟨hy2, rfl⟩ := lift_inv h2
  rw [modifyGrad_last hgr e1] at k6
  cases k6
  rw [gradBox_eq, e5, e4] at hx1 hy1 hx2 hy2
  refine ⟨hgr, ⟨_, rfl, ⟨_, rfl⟩, fun before ht => ⟨e5, e6, matrixRead_none e7, fun hU v hv => matrixRead_last (by rw [← ht hU]; exact e7) hv, e4,
    ⟨_, rfl, .linear ?_ ?_ ?_ ?_⟩, ?_⟩⟩, hn⟩
  · rw [hl.x1] at hx1; exact hx1
  · rw [hl.y1] at hy1; exact hy1
  · rw [hl.x2] at hx2; exact hx2
  · rw [hl.y2] at hy2; exact hy2
  · dsimp only; rw [e3]; exact .nil

theorem radialGradientF_ok {attrs : List Attr} {c c' : Cursor F} {u : Unit} (h : radialGradientF attrs c = (.ok u, c')) :
    GradStarted "radialGradient".toList attrs c c' := by
  unfold radialGradientF at h
  obtain ⟨_, c0, h0, k0⟩ := bind_inv h
  rw [newGrad_run] at h0
  cases h0
  obtain ⟨d, c1, h1, k1⟩ := bind_inv k0
  obtain ⟨hg, hl⟩ := attrLoop_inv (P := fun done d c1 => GradRead c.svg.gradHeap c.svg.grads c.svg.viewBox done c1 ∧ RadRead done d)
    radAttr_read attrs [] _ _ _ _ ⟨gradRead_new c, ⟨rfl, rfl, rfl, rfl, rfl, rfl⟩⟩ h1
  rw [List.nil_append] at hg hl
  obtain ⟨hgr, ⟨g, e1, e2, e3, e4, e5, e6, e7⟩, hn⟩ := hg
  dsimp only at k1
  obtain ⟨g', c2, h2, k2⟩ := bind_inv k1
  rw [currentGrad_last hgr e1] at h2
  cases h2
  obtain ⟨cx, c2, h2, k3⟩ := bind_inv k2
  obtain ⟨hcx, rfl⟩ := lift_inv h2
  obtain ⟨cy, c2, h2, k4⟩ := bind_inv k3
  obtain ⟨hcy, rfl⟩ := lift_inv h2
  obtain ⟨fx, c2, h2, k5⟩ := bind_inv k4
  obtain ⟨hfx, rfl⟩ := lift_inv h2
  obtain ⟨fy, c2, h2, k6⟩ := bind_inv k5
  obtain ⟨hfy, rfl⟩ := lift_inv h2
  obtain ⟨r, c2, h2, k7⟩ := bind_inv k6
  obtain ⟨hr, rfl⟩ := lift_inv h2
  obtain ⟨fr, c2, h2, k8⟩ := bind_inv k7
  obtain ⟨hfr, rfl⟩ := lift_inv h2
  rw [modifyGrad_last hgr e1] at k8
  cases k8
  rw [gradBox_eq, e5, e4] at hcx hcy hfx hfy hr hfr
  refine ⟨hgr, ⟨_, rfl, ⟨_, rfl⟩, fun before ht => ⟨e5, e6, matrixRead_none e7, fun hU v hv => matrixRead_last (by rw [← ht hU]; exact e7) hv, e4,
    ⟨_, rfl, .radial ?_ ?_ ?_ ?_ ?_ ?_⟩, ?_⟩⟩, hn⟩
  · rw [hl.cx] at hcx; exact hcx
  · rw [hl.cy] at hcy; exact hcy
  · rw [GradLen, ← hl.fx, ← hl.cx]
    cases hs : d.setFx <;> rw [hs] at hfx <;> exact hfx
  · rw [GradLen, ← hl.fy, ← hl.cy]
    cases hs : d.setFy <;> rw [hs] at hfy <;> exact hfy
  · rw [hl.r] at hr; exact hr
  · rw [hl.fr] at hfr; exact hfr
  · dsimp only; rw [e3]; exact .nil

/-! ### Stops -/

theorem readLast_snoc {α : Type} {read : Str → Res α} {d x : α} {vs : List Str} {v : Str} (h : read v = .ok x) : ReadLast read d (vs ++ [v]) x := by
  unfold ReadLast; simp [h]

/-- The values of `k` among the attributes and the pieces of the style. -/
theorem stopValues_append (k : String) (hk : k.toList = "stop-color".toList ∨ k.toList = "stop-opacity".toList) (attrs : List Attr) :
    valuesNamed k (appendStyleAttrs attrs ["stop-color".toList, "stop-opacity".toList]) = stopValues k attrs := by
  have hfind : ∀ attrs : List Attr, (match attrs.find? fun a => a.name = "style".toList with
      | some a => a.value
      | none => []) = (valuesNamed "style" attrs).head?.getD [] := by
    intro attrs
    induction attrs with
    | nil => rfl
    | cons a as ih =>
      unfold valuesNamed
      by_cases h : a.name = "style".toList
      · rw [List.find?_cons_of_pos (by simpa using h), List.filter_cons_of_pos (by simpa using h)]; rfl
      · rw [List.find?_cons_of_neg (by simpa using h), List.filter_cons_of_neg (by simpa using h)]; exact ih
  have hpieces : ∀ ps : List Str, valuesNamed k (stylePieces ["stop-color".toList, "stop-opacity".toList] ps) = ps.filterMap fun piece =>
      match cut ':' piece with
      | some (key, v) => if toLower (trimSpace key) = k.toList then some (trimSpace v) else none
      | none => none := by
    intro ps
    induction ps with
    | nil => rfl
    | cons p ps ih =>
      rw [stylePieces]
      cases hc : cut ':' p with
      | none => rw [List.filterMap_cons_none (by rw [hc])]; exact ih
      | some kv =>
        obtain ⟨key, val⟩ := kv
        dsimp only
        by_cases h1 : toLower (trimSpace key) = k.toList
        · rw [if_pos (.inr (by rw [h1]; rcases hk with h | h <;> rw [h] <;> simp)),
            List.filterMap_cons_some (b := trimSpace val) (by rw [hc]; dsimp only; rw [if_pos h1]), ← ih]
          unfold valuesNamed
          rw [List.filter_cons_of_pos (by simpa using h1)]; rfl
        · rw [List.filterMap_cons_none (by rw [hc]; dsimp only; rw [if_neg h1]), ← ih]
          by_cases h2 : ["stop-color".toList, "stop-opacity".toList] = [] ∨ toLower (trimSpace key) ∈ ["stop-color".toList, "stop-opacity".toList]
          · rw [if_pos h2]
            unfold valuesNamed
            rw [List.filter_cons_of_neg (by simpa using h1)]
          · rw [if_neg h2]
  have hap : appendStyleAttrs attrs ["stop-color".toList, "stop-opacity".toList] =
      if (valuesNamed "style" attrs).head?.getD [] = [] then attrs
      else attrs ++ stylePieces ["stop-color".toList, "stop-opacity".toList] (split ';' ((valuesNamed "style" attrs).head?.getD [])) := by
    rw [← hfind]; rfl
  rw [hap, stopValues]
  split
  · rename_i h
    rw [h, show split ';' [] = [[]] from rfl]
    rw [List.filterMap_cons_none (by rfl)]
    simp
  · have happ : ∀ as bs : List Attr, valuesNamed k (as ++ bs) = valuesNamed k as ++ valuesNamed k bs := by
      intro as bs; unfold valuesNamed; rw [List.filter_append, List.map_append]
    rw [happ, hpieces]
    rfl

theorem offset_append (attrs : List Attr) :
    valuesNamed "offset" (appendStyleAttrs attrs ["stop-color".toList, "stop-opacity".toList]) = valuesNamed "offset" attrs := by
  have hpieces : ∀ ps : List Str, valuesNamed "offset" (stylePieces ["stop-color".toList, "stop-opacity".toList] ps) = [] := by
    intro ps
    induction ps with
    | nil => rfl
    | cons p ps ih =>
      rw [stylePieces]
      cases hc : cut ':' p with
      | none => exact ih
      | some kv =>
        obtain ⟨key, val⟩ := kv
        dsimp only
        split
        · rename_i h
          rcases h with h | h
          · cases h
          · unfold valuesNamed
            rw [List.filter_cons_of_neg]
            · exact ih
            · simp only [List.mem_cons, List.not_mem_nil, or_false] at h
              have hn : ∀ k : Str, k ≠ "offset".toList → ¬ decide ((⟨k, trimSpace val⟩ : Attr).name = "offset".toList) = true := by
                intro k hk; simpa using hk
              rcases h with h | h <;> rw [h] <;> exact hn _ (by decide)
        · exact ih
  have hap : ∃ st, appendStyleAttrs attrs ["stop-color".toList, "stop-opacity".toList] =
      if st = [] then attrs else attrs ++ stylePieces ["stop-color".toList, "stop-opacity".toList] (split ';' st) := ⟨_, rfl⟩
  obtain ⟨st, hap⟩ := hap
  rw [hap]
  split
  · rfl
  · rw [show ∀ as bs : List Attr, valuesNamed "offset" (as ++ bs) = valuesNamed "offset" as ++ valuesNamed "offset" bs by
      intro as bs; unfold valuesNamed; rw [List.filter_append, List.map_append], hpieces]
    simp

/-- A stop, as far as read. -/
structure StopRead (done : List Attr) (s : GradStop F) : Prop where
  offset : ReadLast readFraction (num 0) (valuesNamed "offset" done) s.offset
  opacity : ReadLast parseBasicFloat (num 1) (valuesNamed "stop-opacity" done) s.opacity
  color : ReadLast parseSVGColor none (valuesNamed "stop-color" done) s.stopColor

theorem stopAttr_read (done : List Attr) (s : GradStop F) (a : Attr) (s' : GradStop F) (h : StopRead done s) (hr : stopAttr s a = .ok s') :
    StopRead (done ++ [a]) s' := by
  unfold stopAttr at hr
  by_cases k1 : a.name = "offset".toList
  · rw [if_pos k1] at hr
    obtain ⟨x, hx, rfl⟩ := res_map_inv hr
    exact ⟨by rw [valuesNamed_snoc_eq k1]; exact readLast_snoc hx, by rw [valuesNamed_snoc_ne (by rw [k1]; decide)]; exact h.opacity,
      by rw [valuesNamed_snoc_ne (by rw [k1]; decide)]; exact h.color⟩
  rw [if_neg k1] at hr
  by_cases k2 : a.name = "stop-color".toList
  · rw [if_pos k2] at hr
    obtain ⟨x, hx, rfl⟩ := res_map_inv hr
    exact ⟨by rw [valuesNamed_snoc_ne k1]; exact h.offset, by rw [valuesNamed_snoc_ne (by rw [k2]; decide)]; exact h.opacity,
      by rw [valuesNamed_snoc_eq k2]; exact readLast_snoc hx⟩
  rw [if_neg k2] at hr
  by_cases k3 : a.name = "stop-opacity".toList
  · rw [if_pos k3] at hr
    obtain ⟨x, hx, rfl⟩ := res_map_inv hr
    exact ⟨by rw [valuesNamed_snoc_ne k1]; exact h.offset, by rw [valuesNamed_snoc_eq k3]; exact readLast_snoc hx,
      by rw [valuesNamed_snoc_ne k2]; exact h.color⟩
  rw [if_neg k3] at hr
  cases hr
  exact ⟨by rw [valuesNamed_snoc_ne k1]; exact h.offset, by rw [valuesNamed_snoc_ne k3]; exact h.opacity,
    by rw [valuesNamed_snoc_ne k2]; exact h.color⟩

theorem stopLoop_ok {attrs : List Attr} {s : GradStop F}
    (h : Res.loop stopAttr ⟨none, num 0, num 1⟩ (appendStyleAttrs attrs ["stop-color".toList, "stop-opacity".toList]) = .ok s) : StopOf attrs s := by
  have h0 : StopRead [] (⟨none, num 0, num 1⟩ : GradStop F) := ⟨rfl, rfl, rfl⟩
  have hr := resLoop_inv stopAttr_read _ [] _ _ h0 h
  rw [List.nil_append] at hr
  obtain ⟨h1, h2, h3⟩ := hr
  rw [offset_append] at h1
  rw [stopValues_append _ (.inr rfl)] at h2
  rw [stopValues_append _ (.inl rfl)] at h3
  exact ⟨h1, h2, h3⟩

theorem stopF_ok {attrs : List Attr} {c c' : Cursor F} {u : Unit} {heap : List (Gradient F)} {g : Gradient F} (hi : c.inGrad = true)
    (hc : c.grad = some heap.length) (hh : c.svg.gradHeap = heap ++ [g]) (h : stopF attrs c = (.ok u, c')) :
    ∃ s, StopOf attrs s ∧ c' = { c with svg := { c.svg with gradHeap := heap ++ [{ g with stops := g.stops ++ [s] }] } } := by
  unfold stopF at h
  rw [SM.bind_run, SM.get_run] at h
  dsimp only at h
  rw [if_pos hi] at h
  obtain ⟨s, c1, h1, h2⟩ := bind_inv h
  obtain ⟨hs, rfl⟩ := lift_inv h1
  rw [modifyGrad_last hc hh] at h2
  cases h2
  exact ⟨s, stopLoop_ok hs, rfl⟩

theorem stopF_none {attrs : List Attr} {c : Cursor F} (hi : c.inGrad = false) : stopF attrs c = (.ok (), c) := by
  unfold stopF
  rw [SM.bind_run, SM.get_run]
  dsimp only
  rw [if_neg (by rw [hi]; decide)]
  rfl

/-! ### Everything else leaves the gradients alone -/

/-- The gradients, and which of them is being read. -/
structure GradSame (c c' : Cursor F) : Prop where
  grads : c'.svg.grads = c.svg.grads
  heap : c'.svg.gradHeap = c.svg.gradHeap
  grad : c'.grad = c.grad
  inGrad : c'.inGrad = c.inGrad

theorem gradSame_pre : Pre (GradSame (F := F)) where
  refl c := ⟨rfl, rfl, rfl, rfl⟩
  trans h1 h2 := ⟨h2.1.trans h1.1, h2.2.trans h1.2, h2.3.trans h1.3, h2.4.trans h1.4⟩

theorem styleR_gradSame {c c' : Cursor F} (h : StyleR c c') : GradSame c c' := by rw [h.eq]; exact ⟨rfl, rfl, rfl, rfl⟩

theorem pushStyle_gradSame (attrs : List Attr) : Keeps GradSame (pushStyle attrs : CM F Unit) := by
  intro c
  rcases pushStyle_frame attrs c with ⟨top, rest, st, c1, -, -, h, h'⟩ | ⟨-, h⟩
  · rw [h']; exact gradSame_pre.trans (styleR_gradSame h) ⟨rfl, rfl, rfl, rfl⟩
  · exact styleR_gradSame h

theorem popStyle_gradSame : Keeps GradSame (popStyle : CM F Unit) := by
  intro c
  unfold popStyle
  split
  · exact gradSame_pre.refl c
  · exact ⟨rfl, rfl, rfl, rfl⟩

/-- The same, provided that no gradient is being read. -/
def GradIdle (c c' : Cursor F) : Prop := c.inGrad = false → GradSame c c'

theorem gradIdle_pre : Pre (GradIdle (F := F)) where
  refl c := fun _ => gradSame_pre.refl c
  trans h1 h2 := fun h => gradSame_pre.trans (h1 h) (h2 ((h1 h).inGrad.trans h))

theorem plain_gradSame {fuel : Nat} {use : List Attr → CM F Unit} {tag : Str} {df : List Attr → CM F Unit}
    (h : drawFuncs fuel use tag = some df) (hu : tag ≠ "use".toList) (hg : ¬ IsGrad tag) (hs : tag ≠ "stop".toList) (attrs : List Attr) :
    Keeps GradSame (df attrs) := by
  rcases drawFuncs_cases h with ⟨-, h⟩ | ⟨-, rfl⟩ | ⟨-, rfl⟩ | ⟨h, -⟩ | ⟨-, rfl⟩ | ⟨-, rfl⟩ | ⟨-, rfl⟩ | ⟨h, -⟩ | ⟨h, -⟩ |
    ⟨-, rfl⟩ | ⟨h, -⟩
  · intro c; rw [(h attrs c).eq]; exact ⟨rfl, rfl, rfl, rfl⟩
  · intro c; rw [(svgF_keeps attrs c).eq]; exact ⟨rfl, rfl, rfl, rfl⟩
  · exact keeps_pure gradSame_pre _
  · exact absurd h hs
  · exact keeps_modify fun _ => ⟨rfl, rfl, rfl, rfl⟩
  · exact keeps_modify fun _ => ⟨rfl, rfl, rfl, rfl⟩
  · exact keeps_modify fun _ => ⟨rfl, rfl, rfl, rfl⟩
  · exact absurd (.inl h) hg
  · exact absurd (.inr h) hg
  · unfold maskF
    exact keeps_bind gradSame_pre (keeps_get gradSame_pre) fun _ => keeps_bind gradSame_pre (keeps_lift gradSame_pre _) fun _ =>
      keeps_modify fun _ => ⟨rfl, rfl, rfl, rfl⟩
  · exact absurd h hu

theorem gradIdle_use : UsePreQ (fun tag => ¬ IsGrad tag) (GradIdle (F := F)) where
  toPre := gradIdle_pre
  push attrs := keeps_mono (pushStyle_gradSame attrs) fun _ _ h _ => h
  pop := keeps_mono popStyle_gradSame fun _ _ h _ => h
  error m := fun c _ => styleR_gradSame (handleError_styleR m c)
  plain {fuel use tag df} h hu hg attrs := by
    by_cases hs : tag = "stop".toList
    · intro c hi
      have : df = stopF := by subst hs; exact (Option.some.inj h).symm
      rw [this, stopF_none hi]
      exact gradSame_pre.refl c
    · exact keeps_mono (plain_gradSame h hu hg hs attrs) fun _ _ h _ => h
  offset c x y := fun _ => ⟨rfl, rfl, rfl, rfl⟩

/-- No gradient is ever recorded as a definition. -/
def NoGradDefs (c : Cursor F) : Prop := DefsQ (fun d => d.tag = "endg".toList ∨ ¬ IsGrad d.tag) c

theorem readToken_noGradDefs (fuel : Nat) (t : Token) {c : Cursor F} (hc : NoGradDefs c) : NoGradDefs (readToken fuel t c).2 := by
  by_cases ht : ∃ n a, t = .start n a ∧ IsGrad n
  · obtain ⟨name, attrs, rfl, hg⟩ := ht
    rw [readToken, SM.bind_run]
    have hp := defsQ_elem (pushStyle_elem attrs c) hc
    rcases hr : pushStyle attrs c with ⟨r, d⟩
    rw [hr] at hp
    dsimp only at hp
    cases r with
    | ok u =>
      dsimp only
      rcases readStartElement_cases fuel name attrs d with ⟨-, h1, h2, -⟩ | ⟨-, ⟨-, h⟩ | ⟨df, hd, ⟨-, h⟩ | ⟨-, c', hE, h⟩ | ⟨-, -, h⟩⟩⟩
      · rcases hg with hg | hg
        · exact absurd hg h2
        · exact absurd hg h1
      · rw [h]; exact defsQ_elem (handleError_elem _ d) hp
      · rw [h]; exact defsQ_elem (drawFuncs_elem hd attrs d) hp
      · rw [h]; exact emit_defsQ hE (defsQ_elem (drawFuncs_elem hd attrs d) hp)
      · rw [h]; exact defsQ_elem (drawFuncs_elem hd attrs d) hp
    | err e => exact hp
    | panic s => exact hp
    | diverge => exact hp
  · refine readToken_defsQ (.inl rfl) fuel ?_ hc
    cases t with
    | start n a => exact .inr fun h => ht ⟨n, a, rfl, h⟩
    | stop _ => trivial
    | chars _ => trivial
    | other => trivial

/-! ### The table -/

theorem note_start (before : List Token) (gs : List GradientText) (o : Bool) (n : Str) (a : List Attr) :
    noteGradient before (gs, o) (.start n a) = if IsGrad n then (⟨before, n, a, []⟩ :: gs, true)
      else if n = "stop".toList ∧ o = true then
        match gs with
        | g :: gs => ({ g with stops := g.stops ++ [a] } :: gs, o)
        | [] => ([], o)
      else (gs, o) := rfl

/-- Which gradient a name stands for, and where it is. -/
def GradNamedAt (gs : List GradientText) (id : Str) : Option Nat → Prop
  | none => ∀ g ∈ gs, id ∉ g.ids
  | some addr => ∃ newer g older, gs = newer ++ g :: older ∧ older.length = addr ∧ id ∈ g.ids ∧ ∀ h ∈ newer, id ∉ h.ids

/-- The cursor holds these gradients, with the view boxes `vb` before each. -/
structure GradTable (vb : List Token → Bounds F) (s : List GradientText × Bool) (c : Cursor F) : Prop where
  inGrad : c.inGrad = s.2
  opened : s.2 = true → s.1 ≠ []
  grad : ∀ g gs, s.1 = g :: gs → c.grad = some gs.length
  heap : List.Forall₂ (fun t g => GradientOf (vb t.before) t g) s.1 c.svg.gradHeap.reverse
  named : ∀ id, GradNamedAt s.1 id (c.svg.grads.find id)

theorem gradTable_init (vb : List Token → Bounds F) (m : ErrorMode) : GradTable vb (gradientsIn []) (initCursor (F := F) m) :=
  ⟨rfl, (by intro h; cases h), (by intro g gs h; cases h), .nil, fun id => (by intro g h; cases h)⟩

theorem gradTable_same {vb : List Token → Bounds F} {s : List GradientText × Bool} {c c' : Cursor F} (h : GradTable vb s c)
    (hs : GradSame c c') : GradTable vb s c' :=
  ⟨hs.inGrad.trans h.inGrad, h.opened, by rw [hs.grad]; exact h.grad, by rw [hs.heap]; exact h.heap, by rw [hs.grads]; exact h.named⟩

theorem gradTable_start {vb : List Token → Bounds F} {s : List GradientText × Bool} {c c' : Cursor F} {before : List Token} {name : Str}
    {attrs : List Attr} (h : GradTable vb s c) (hg : IsGrad name) (hv : vb before = c.svg.viewBox) (hst : GradStarted name attrs c c')
    (ht : (⟨before, name, attrs, []⟩ : GradientText).Untransformed → topTransform c' = some Matrix2D.identity) (hi : c'.inGrad = true) : GradTable vb (noteGradient before s (.start name attrs)) c' := by
  have e : noteGradient before s (.start name attrs) = (⟨before, name, attrs, []⟩ :: s.1, true) := by
    obtain ⟨gs, o⟩ := s
    rw [note_start, if_pos hg]
  have hlen : c.svg.gradHeap.length = s.1.length := by rw [h.heap.length_eq, List.length_reverse]
  rw [e]
  obtain ⟨g, h1, -, h2⟩ := hst.heap
  refine ⟨hi, by simp, ?_, ?_, fun id => ?_⟩
  · intro g gs he
    cases he
    rw [hst.grad, hlen]
  · rw [h1, List.reverse_append]
    exact .cons (by rw [hv]; exact h2 before ht) h.heap
  · rw [hst.names]
    by_cases hid : id ∈ valuesNamed "id" attrs
    · rw [if_pos hid]
      exact ⟨[], _, s.1, rfl, hlen.symm, hid, by simp⟩
    · rw [if_neg hid]
      have hn := h.named id
      cases hf : c.svg.grads.find id with
      | none =>
        rw [hf] at hn
        intro g hg
        rcases List.mem_cons.1 hg with rfl | hg
        · exact hid
        · exact hn g hg
      | some addr =>
        rw [hf] at hn
        obtain ⟨newer, g, older, e1, e2, e3, e4⟩ := hn
        refine ⟨⟨before, name, attrs, []⟩ :: newer, g, older, by rw [e1]; rfl, e2, e3, ?_⟩
        intro h hh
        rcases List.mem_cons.1 hh with rfl | hh
        · exact hid
        · exact e4 h hh

theorem reverse_cons_eq {α : Type} {l : List α} {x : α} {xs : List α} (h : l.reverse = x :: xs) : l = xs.reverse ++ [x] := by
  have := congrArg List.reverse h
  simpa using this

theorem gradTable_stop {vb : List Token → Bounds F} {s : List GradientText × Bool} {c c' : Cursor F} {before : List Token}
    {attrs : List Attr} {u : Unit} (h : GradTable vb s c) (hr : stopF attrs c = (.ok u, c')) :
    GradTable vb (noteGradient before s (.start "stop".toList attrs)) c' := by
  obtain ⟨gs, o⟩ := s
  rw [note_start, if_neg (by decide)]
  cases o with
  | false =>
    rw [if_neg (by simp)]
    rw [stopF_none h.inGrad] at hr
    cases hr
    exact h
  | true =>
    rw [if_pos ⟨rfl, rfl⟩]
    cases gs with
    | nil => exact absurd rfl (h.opened rfl)
    | cons g gs =>
      dsimp only
      have hh := h.heap
      generalize hrev : c.svg.gradHeap.reverse = rev at hh
      cases hh with
      | cons h1 h2 =>
        rename_i g0 rest
        have he := reverse_cons_eq hrev
        have hlen : gs.length = rest.reverse.length := by rw [List.length_reverse]; exact h2.length_eq
        obtain ⟨st, hst, rfl⟩ := stopF_ok h.inGrad (by rw [h.grad g gs rfl, hlen]) he hr
        refine ⟨h.inGrad, by simp, ?_, ?_, fun id => ?_⟩
        · intro g' gs' he; cases he; exact h.grad g gs rfl
        · dsimp only
          rw [List.reverse_append, List.reverse_reverse]
          refine .cons ⟨h1.units, h1.spread, h1.matrix, h1.transform, h1.bounds, h1.direction, ?_⟩ h2
          exact List.rel_append h1.stops (.cons hst .nil)
        · have hn := h.named id
          dsimp only
          cases hf : c.svg.grads.find id with
          | none =>
            rw [hf] at hn
            intro x hx
            rcases List.mem_cons.1 hx with rfl | hx
            · exact hn g List.mem_cons_self
            · exact hn x (List.mem_cons_of_mem _ hx)
          | some addr =>
            rw [hf] at hn
            obtain ⟨newer, x, older, e1, e2, e3, e4⟩ := hn
            cases newer with
            | nil =>
              cases e1
              exact ⟨[], { g with stops := g.stops ++ [attrs] }, gs, rfl, e2, e3, fun h hh => nomatch hh⟩
            | cons y newer =>
              cases e1
              refine ⟨{ g with stops := g.stops ++ [attrs] } :: newer, x, older, rfl, e2, e3, ?_⟩
              intro z hz
              rcases List.mem_cons.1 hz with rfl | hz
              · exact e4 g List.mem_cons_self
              · exact e4 z (List.mem_cons_of_mem _ hz)

/-! ### Tokens -/

theorem note_other {before : List Token} {s : List GradientText × Bool} {n : Str} {a : List Attr} (h1 : ¬ IsGrad n)
    (h2 : n ≠ "stop".toList ∨ s.2 = false) : noteGradient before s (.start n a) = s := by
  obtain ⟨gs, o⟩ := s
  rw [note_start, if_neg h1, if_neg]
  rintro ⟨h3, h4⟩
  rcases h2 with h2 | h2
  · exact h2 h3
  · rw [h4] at h2; cases h2

theorem emit_gradSame {c c' : Cursor F} (h : Emit c c') : GradSame c c' := by cases h <;> exact ⟨rfl, rfl, rfl, rfl⟩

theorem recordDef_gradSame (name : Str) (attrs : List Attr) (c : Cursor F) : GradSame c (recordDef name attrs c) := by
  rw [recordDef_eq]; exact ⟨rfl, rfl, rfl, rfl⟩

theorem declLoop_transform (ds : List (Str × Str)) : ∀ {c c' : Cursor F} {st st' : PathStyle F}, (∀ d ∈ ds, d.1 ≠ "transform".toList) →
    declLoop st ds c = (.ok st', c') → st'.transform = st.transform := by
  induction ds with
  | nil => intro c c' st st' _ h; cases h; rfl
  | cons d ds ih =>
    intro c c' st st' hd h
    rw [declLoop] at h
    obtain ⟨st1, c1, h1, h2⟩ := bind_inv h
    rw [ih (fun x hx => hd x (List.mem_cons_of_mem _ hx)) h2]
    exact (readStyleAttr_only h1).transform (hd d List.mem_cons_self)

theorem decls_untransformed {attrs : List Attr} (h : valuesOf "transform" attrs = []) : ∀ d ∈ decls attrs, d.1 ≠ "transform".toList := by
  intro d hd hk
  rw [decls_eq_declared] at hd
  unfold valuesOf at h
  rw [List.map_eq_nil_iff, List.filter_eq_nil_iff] at h
  exact h d hd (decide_eq_true hk)

theorem pushStyle_top {attrs : List Attr} {c d : Cursor F} {u : Unit} (h : pushStyle attrs c = (.ok u, d)) (hv : valuesOf "transform" attrs = [])
    {m : Matrix2D F} (ht : topTransform c = some m) : topTransform d = some m := by
  rcases pushStyle_frame attrs c with ⟨top, rest, st, c1, hs, hl, -, hp⟩ | ⟨hn, -⟩
  · rw [hp] at h
    cases h
    rw [topTransform, hs] at ht
    rw [← ht]
    show some st.transform = _
    rw [declLoop_transform _ (decls_untransformed hv) hl]
    rfl
  · rw [h] at hn; exact absurd rfl (hn u)

/-- One more token. No `use` comes while a gradient is open. -/
theorem readToken_gradTable {fuel : Nat} {vb : List Token → Bounds F} {before : List Token} {s : List GradientText × Bool} {t : Token}
    {c c' : Cursor F} {u : Unit} (hN : NoGradDefs c) (hu : ∀ attrs, t = .start "use".toList attrs → c.inGrad = false)
    (h : GradTable vb s c) (hv : vb before = c.svg.viewBox)
    (ht : (∀ f ∈ framesOf before, valuesOf "transform" f.2.attrs = []) → topTransform c = some Matrix2D.identity)
    (hr : readToken fuel t c = (.ok u, c')) : GradTable vb (noteGradient before s t) c' := by
  cases t with
  | start name attrs =>
    rw [readToken] at hr
    obtain ⟨_, d, h1, h2⟩ := bind_inv hr
    have hp := pushStyle_gradSame attrs c
    have hb := pushStyle_box attrs c
    have hE := pushStyle_elem attrs c
    rw [h1] at hp hb hE
    have hd := gradTable_same h hp
    have hv' : vb before = d.svg.viewBox := hv.trans hb.symm
    have hNd : NoGradDefs d := defsQ_elem hE hN
    rcases readStartElement_cases fuel name attrs d with ⟨-, g1, g2, g3, h'⟩ | ⟨-, ⟨hn, h'⟩ | ⟨df, hdr, ⟨hnt, h'⟩ | ⟨-, c2, hEm, h'⟩ | ⟨-, -, h'⟩⟩⟩
    · rw [h'] at h2; cases h2
      rw [note_other (by rintro (h | h); exact g2 h; exact g1 h) (.inr (by rw [← hd.inGrad]; exact g3))]
      exact gradTable_same hd (recordDef_gradSame name attrs d)
    · rw [h'] at h2
      have hS := handleError_styleR (.cannotProcess name) d
      rw [h2] at hS
      rw [note_other]
      · exact gradTable_same hd (styleR_gradSame hS)
      · rintro (rfl | rfl) <;> cases hn
      · left; rintro rfl; cases hn
    · rw [h'] at h2; rw [h2] at hnt; exact absurd trivial hnt
    · rw [h'] at h2
      obtain ⟨hres, rfl⟩ : (df attrs d).1 = .ok u ∧ c2 = c' := by simpa using h2
      refine gradTable_same ?_ (emit_gradSame hEm)
      have hrun : df attrs d = (.ok u, (df attrs d).2) := by rw [← hres]
      by_cases hg : IsGrad name
      · have hbody := grad_start hdr hg attrs d
        have hin : (df attrs d).2.inGrad = true := by rw [hbody.eq]; rfl
        have htop : (⟨before, name, attrs, []⟩ : GradientText).Untransformed → topTransform (df attrs d).2 = some Matrix2D.identity := by
          intro hU
          have : topTransform (df attrs d).2 = topTransform d := by rw [hbody.eq]; rfl
          rw [this]
          exact pushStyle_top h1 hU.1 (ht hU.2)
        refine gradTable_start hd hg hv' ?_ htop hin
        rcases hg with rfl | rfl
        · have : df = linearGradientF := (Option.some.inj hdr).symm
          subst this
          exact linearGradientF_ok hrun
        · have : df = radialGradientF := (Option.some.inj hdr).symm
          subst this
          exact radialGradientF_ok hrun
      · by_cases hst : name = "stop".toList
        · subst hst
          have : df = stopF := (Option.some.inj hdr).symm
          subst this
          exact gradTable_stop hd hrun
        · rw [note_other hg (.inl hst)]
          by_cases hus : name = "use".toList
          · subst hus
            have hi : d.inGrad = false := hp.inGrad.trans (hu attrs rfl)
            rw [drawFuncs_use] at hdr
            cases hdr
            exact gradTable_same hd ((useF_keepsQ gradIdle_use fuel attrs d hNd.defs).1 hi)
          · exact gradTable_same hd (plain_gradSame hdr hus hg hst attrs d)
    · rw [h'] at h2; cases h2
  | stop name =>
    rw [readToken] at hr
    have hP : c'.svg.grads = c.svg.grads ∧ c'.svg.gradHeap = c.svg.gradHeap ∧ c'.grad = c.grad ∧ c'.inGrad = (c.inGrad && !decide (IsGrad name)) := by
      unfold readEndElement at hr
      obtain ⟨_, d, h1, h2⟩ := bind_inv hr
      have hp := popStyle_gradSame c
      rw [h1] at hp
      dsimp only at hp
      rw [← hp.grads, ← hp.heap, ← hp.grad, ← hp.inGrad]
      rw [SM.modify_run] at h2
      cases h2
      have hne : ∀ n : String, n.toList ≠ "linearGradient".toList → n.toList ≠ "radialGradient".toList → name = n.toList →
          (d.inGrad && !decide (IsGrad name)) = d.inGrad := by
        rintro n h1 h2 rfl
        have : ¬ IsGrad n.toList := by rintro (h | h); exact h1 h; exact h2 h
        simp [this]
      by_cases k1 : name = "g".toList
      · rw [if_pos k1, hne _ (by decide) (by decide) k1]; split <;> exact ⟨rfl, rfl, rfl, rfl⟩
      rw [if_neg k1]
      by_cases k2 : name = "mask".toList
      · rw [if_pos k2, hne _ (by decide) (by decide) k2]; split <;> exact ⟨rfl, rfl, rfl, rfl⟩
      rw [if_neg k2]
      by_cases k3 : name = "title".toList
      · rw [if_pos k3, hne _ (by decide) (by decide) k3]; exact ⟨rfl, rfl, rfl, rfl⟩
      rw [if_neg k3]
      by_cases k4 : name = "desc".toList
      · rw [if_pos k4, hne _ (by decide) (by decide) k4]; exact ⟨rfl, rfl, rfl, rfl⟩
      rw [if_neg k4]
      by_cases k5 : name = "defs".toList
      · rw [if_pos k5, hne _ (by decide) (by decide) k5]; split <;> exact ⟨rfl, rfl, rfl, rfl⟩
      rw [if_neg k5]
      by_cases k6 : name = "radialGradient".toList ∨ name = "linearGradient".toList
      · rw [if_pos k6]
        have : IsGrad name := k6.symm
        simp [this]
      · rw [if_neg k6]
        have : ¬ IsGrad name := fun h => k6 h.symm
        simp [this]
    obtain ⟨e1, e2, e3, e4⟩ := hP
    obtain ⟨gs, o⟩ := s
    refine ⟨by rw [e4, h.inGrad]; rfl, fun ho => h.opened ?_, by rw [e3]; exact h.grad, by rw [e2]; exact h.heap, by rw [e1]; exact h.named⟩
    simp only [noteGradient, Bool.and_eq_true] at ho
    exact ho.1
  | chars s' =>
    have hk := chars_fields hr
    rw [hk]
    exact gradTable_same h ⟨rfl, rfl, rfl, rfl⟩
  | other => cases hr; exact h

/-! ### References -/

theorem refersTo_iff (v id : Str) : RefersTo v id ↔
    (hasPrefix v "url(".toList && hasSuffix v ")".toList) = true ∧ trimSpace (v.drop 4).dropLast = '#' :: id := by
  constructor
  · rintro ⟨w, w', hw, hw', hid, rfl⟩
    have h1 : hasPrefix ("url(".toList ++ (w ++ '#' :: id ++ w') ++ ")".toList) "url(".toList = true := by
      rw [hasPrefix_iff, List.append_assoc]; exact List.prefix_append _ _
    have h2 : hasSuffix ("url(".toList ++ (w ++ '#' :: id ++ w') ++ ")".toList) ")".toList = true := by
      rw [hasSuffix_iff]; exact List.suffix_append _ _
    have h3 : (("url(".toList ++ (w ++ '#' :: id ++ w') ++ ")".toList).drop 4).dropLast = w ++ '#' :: id ++ w' := by
      rw [List.append_assoc, List.drop_append_of_le_length (by decide)]
      have : ("url(".toList).drop 4 = [] := by decide
      rw [this, List.nil_append]
      exact List.dropLast_concat
    have h4 : Trimmed ('#' :: id) := by
      constructor
      · intro c hc; simp at hc; subst hc; decide
      · intro c hc
        cases hl : id.getLast? with
        | none => simp at hl; subst hl; simp at hc; subst hc; decide
        | some x =>
          rw [hl] at hid
          have : ('#' :: id).getLast? = some x := by
            cases id with
            | nil => simp at hl
            | cons a as => rw [List.getLast?_cons_cons]; exact hl
          rw [this] at hc; cases hc
          simpa using hid
    rw [h1, h2, h3, trimSpace_pad hw hw' h4]
    exact ⟨rfl, rfl⟩
  · rintro ⟨hps, heq⟩
    rw [Bool.and_eq_true] at hps
    obtain ⟨r, hr⟩ := hasPrefix_iff.1 hps.1
    obtain ⟨l, hl⟩ := hasSuffix_iff.1 hps.2
    obtain ⟨w, w', hw, hb, hb', ht⟩ := trimSpace_spec (v.drop 4).dropLast
    rw [heq] at hw ht
    refine ⟨w, w', hb, hb', ?_, ?_⟩
    · cases hl : id.getLast? with
      | none => rfl
      | some x =>
        have : ('#' :: id).getLast? = some x := by
          cases id with
          | nil => simp at hl
          | cons a as => rw [List.getLast?_cons_cons]; exact hl
        have := ht.2 x this
        simp [this]
    · rw [← hw]
      have hd : v.drop 4 = r := by rw [← hr]; rfl
      rw [hd, ← hr]
      have hrne : r ≠ [] := by
        rintro rfl
        rw [hd] at heq; simp [trimSpace] at heq
      have hlast : r.getLast hrne = ')' := by
        have h1 : v.getLast? = some ')' := by rw [← hl]; simp
        rw [← hr, getLast?_append_ne _ hrne, List.getLast?_eq_some_getLast hrne] at h1
        simpa using h1
      have := List.dropLast_append_getLast hrne
      rw [hlast] at this
      rw [List.append_assoc]
      congr 1
      exact this.symm

theorem localize_eq (g : Gradient F) (p : Option (Pattern F)) : localizeGrad g p = Gradient.complete g (paintColor p) := by
  have hc : getColor p = paintColor p := by
    rcases p with _ | ⟨c | g⟩
    · rfl
    · rfl
    · unfold getColor paintColor
      dsimp only
      cases g.stops.findSome? GradStop.stopColor <;> rfl
  unfold localizeGrad Gradient.complete
  rw [hc]
  split
  · dsimp only
    congr 1
    refine List.map_congr_left fun s _ => ?_
    obtain ⟨sc, o, op⟩ := s
    cases sc <;> rfl
  · rename_i h
    have : g.stops.map (fun s => { s with stopColor := some (s.stopColor.getD (paintColor p)) }) = g.stops := by
      conv_rhs => rw [← List.map_id g.stops]
      refine List.map_congr_left fun s hs => ?_
      obtain ⟨sc, o, op⟩ := s
      cases sc with
      | none => exact absurd (List.any_eq_true.2 ⟨_, hs, rfl⟩) h
      | some c => rfl
    rw [this]

theorem forall₂_split {α β : Type} {R : α → β → Prop} : ∀ {a : List α} {x : α} {b : List α} {l : List β}, List.Forall₂ R (a ++ x :: b) l →
    ∃ l1 y l2, l = l1 ++ y :: l2 ∧ R x y ∧ l2.length = b.length
  | [], _, _, _, .cons h1 h2 => ⟨[], _, _, rfl, h1, h2.length_eq.symm⟩
  | _ :: _, _, _, _, .cons h1 h2 => by
    obtain ⟨l1, y, l2, e1, e2, e3⟩ := forall₂_split h2
    exact ⟨_ :: l1, y, l2, by rw [e1]; rfl, e2, e3⟩

theorem named_find {vb : List Token → Bounds F} {s : List GradientText × Bool} {c : Cursor F} (h : GradTable vb s c) (id : Str) :
    (c.svg.grads.find id = none ∧ s.1.find? (fun g => id ∈ g.ids) = none) ∨
    ∃ addr t g, c.svg.grads.find id = some addr ∧ s.1.find? (fun g => id ∈ g.ids) = some t ∧ c.svg.gradHeap[addr]? = some g ∧
      GradientOf (vb t.before) t g := by
  have hn := h.named id
  cases hf : c.svg.grads.find id with
  | none =>
    rw [hf] at hn
    refine .inl ⟨rfl, ?_⟩
    rw [List.find?_eq_none]
    intro g hg
    simpa using hn g hg
  | some addr =>
    rw [hf] at hn
    obtain ⟨newer, t, older, e1, e2, e3, e4⟩ := hn
    have hh := h.heap
    rw [e1] at hh
    obtain ⟨l1, y, l2, f1, f2, f3⟩ := forall₂_split hh
    refine .inr ⟨addr, t, y, rfl, ?_, ?_, f2⟩
    · rw [e1, List.find?_append, List.find?_eq_none.2 (by intro g hg; simpa using e4 g hg), Option.none_or,
        List.find?_cons_of_pos (by simpa using e3)]
    · have := congrArg List.reverse f1
      rw [List.reverse_reverse, List.reverse_append, List.reverse_cons, List.append_assoc] at this
      rw [this, List.getElem?_append_right (by rw [List.length_reverse]; omega), List.length_reverse, f3, e2, Nat.sub_self]
      rfl

/-! ### Paint -/

theorem paint_read {fuel : Nat} {m : ErrorMode} {before : List Token} {c c' : Cursor F} {st st' : PathStyle F} {k v : Str}
    (ht : GradTable (viewBoxAfter fuel m) (gradientsIn before) c) (h : readStyleAttr st k v c = (.ok st', c')) :
    (if k = "fill".toList then PaintStep fuel m before st.fillerColor v st'.fillerColor else st'.fillerColor = st.fillerColor) ∧
    (if k = "stroke".toList then PaintStep fuel m before st.linerColor v st'.linerColor else st'.linerColor = st.linerColor) := by
  have ho := readStyleAttr_only h
  have key : ∀ (p : Option (Pattern F)), (∃ g, readGradURL c.svg v p = some g ∧ PaintStep fuel m before p v (some (.gradient g))) ∨
      (readGradURL c.svg v p = none ∧ ∀ col, parseSVGColor v = .ok col → PaintStep fuel m before p v (col.map Pattern.plain)) := by
    intro p
    unfold readGradURL
    split
    · rename_i hps
      split
      · rename_i id heq
        have hr : RefersTo v id := (refersTo_iff v id).2 ⟨hps, heq⟩
        rcases named_find ht id with ⟨h1, h2⟩ | ⟨addr, t, g, h1, h2, h3, h4⟩
        · rw [h1]
          refine .inr ⟨rfl, fun col hc => .color (fun id' hr' => ?_) hc⟩
          have := ((refersTo_iff v id').1 hr').2
          rw [heq] at this
          cases this
          exact h2
        · rw [h1]
          dsimp only
          rw [h3]
          refine .inl ⟨_, rfl, ?_⟩
          dsimp only
          rw [localize_eq]
          exact .gradient hr h2 h4
      · rename_i hno
        refine .inr ⟨rfl, fun col hc => .color (fun id' hr' => ?_) hc⟩
        exact absurd ((refersTo_iff v id').1 hr').2 (hno id')
    · rename_i hps
      refine .inr ⟨rfl, fun col hc => .color (fun id' hr' => ?_) hc⟩
      exact absurd ((refersTo_iff v id').1 hr').1 hps
  constructor
  · by_cases hk : k = "fill".toList
    · rw [if_pos hk]
      subst hk
      rw [readStyleAttr_eff] at h
      unfold styleEff at h
      rw [if_pos rfl] at h
      rcases key st.fillerColor with ⟨g, h1, h2⟩ | ⟨h1, h2⟩
      · rw [h1] at h
        cases h
        exact h2
      · rw [h1] at h
        simp only [runEff, SM.lift_run, Prod.mk.injEq] at h
        obtain ⟨col, hc, rfl⟩ := res_map_inv h.1
        exact h2 col hc
    · rw [if_neg hk]; exact ho.filler hk
  · by_cases hk : k = "stroke".toList
    · rw [if_pos hk]
      subst hk
      rw [readStyleAttr_eff] at h
      unfold styleEff at h
      rw [if_neg (by decide), if_neg (by decide), if_pos rfl] at h
      rcases key st.linerColor with ⟨g, h1, h2⟩ | ⟨h1, h2⟩
      · rw [h1] at h
        cases h
        exact h2
      · rw [h1] at h
        simp only [runEff, SM.lift_run, Prod.mk.injEq] at h
        obtain ⟨col, hc, rfl⟩ := res_map_inv h.1
        exact h2 col hc
    · rw [if_neg hk]; exact ho.liner hk

theorem values_cons (k : String) (d : Str × Str) (ds : List (Str × Str)) :
    ((d :: ds).filter fun d => d.1 = k.toList).map (·.2) = (if d.1 = k.toList then [d.2] else []) ++ (ds.filter fun d => d.1 = k.toList).map (·.2) := by
  by_cases h : d.1 = k.toList <;> simp [h]

theorem paint_loop {fuel : Nat} {m : ErrorMode} {before : List Token} (ds : List (Str × Str)) : ∀ {c c' : Cursor F} {st st' : PathStyle F},
    GradTable (viewBoxAfter fuel m) (gradientsIn before) c → declLoop st ds c = (.ok st', c') →
    PaintSteps fuel m before ((ds.filter fun d => d.1 = "fill".toList).map (·.2)) st.fillerColor st'.fillerColor ∧
    PaintSteps fuel m before ((ds.filter fun d => d.1 = "stroke".toList).map (·.2)) st.linerColor st'.linerColor := by
  induction ds with
  | nil => intro c c' st st' _ h; cases h; exact ⟨rfl, rfl⟩
  | cons d ds ih =>
    intro c c' st st' ht h
    rw [declLoop] at h
    obtain ⟨st1, c1, h1, h2⟩ := bind_inv h
    have hS := readStyleAttr_styleR st d.1 d.2 c
    rw [h1] at hS
    obtain ⟨p1, p2⟩ := paint_read ht h1
    obtain ⟨i1, i2⟩ := ih (gradTable_same ht (styleR_gradSame hS)) h2
    rw [values_cons, values_cons]
    constructor
    · split at p1
      · rename_i hk; rw [if_pos hk]; exact ⟨_, p1, i1⟩
      · rename_i hk; rw [if_neg hk, ← p1]; exact i1
    · split at p2
      · rename_i hk; rw [if_pos hk]; exact ⟨_, p2, i2⟩
      · rename_i hk; rw [if_neg hk, ← p2]; exact i2

/-! ### The style stack -/

/-- The paints of a style are those along the frames. -/
def Painted (fuel : Nat) (m : ErrorMode) (fr : List (List Token × Elem)) (st : PathStyle F) : Prop :=
  PaintAlong fuel m "fill" (some (.plain ⟨0, 0, 0, 255⟩)) fr st.fillerColor ∧ PaintAlong fuel m "stroke" none fr st.linerColor ∧
    ((∀ f ∈ fr, valuesOf "transform" f.2.attrs = []) → st.transform = Matrix2D.identity)

def PaintStack (fuel : Nat) (m : ErrorMode) : List (List Token × Elem) → List (PathStyle F) → Prop
  | [], stack => stack = [defaultStyle]
  | f :: fr, stack => ∃ st rest, stack = st :: rest ∧ Painted fuel m (f :: fr) st ∧ PaintStack fuel m fr rest

theorem paintStack_top {fuel : Nat} {m : ErrorMode} {fr : List (List Token × Elem)} {stack : List (PathStyle F)} (h : PaintStack fuel m fr stack)
    {st : PathStyle F} {rest : List (PathStyle F)} (hs : stack = st :: rest) : Painted fuel m fr st := by
  cases fr with
  | nil =>
    rw [show stack = [defaultStyle] from h] at hs
    cases hs; exact ⟨rfl, rfl, fun _ => rfl⟩
  | cons e ch =>
    obtain ⟨st', rest', h1, h2, -⟩ := h
    rw [h1] at hs
    cases hs; exact h2

/-- The state after the tokens `done` of the document `full`, before the tokens `ts`. -/
structure PaintAt (fuel : Nat) (m : ErrorMode) (full done : List Token) (ch : List Elem) (ts : List Token) (c : Cursor F) : Prop where
  full : full = done ++ ts
  run : readTokens fuel done (initCursor m) = (.ok (), c)
  frames : (framesOf done).map (·.2) = ch
  noGrad : NoGradDefs c
  table : GradTable (viewBoxAfter fuel m) (gradientsIn done) c
  stack : PaintStack fuel m (framesOf done) c.styleStack

theorem viewBoxAfter_run {fuel : Nat} {m : ErrorMode} {ts : List Token} {c : Cursor F} {u : Unit}
    (h : readTokens fuel ts (initCursor m) = (.ok u, c)) : viewBoxAfter fuel m ts = c.svg.viewBox := by
  unfold viewBoxAfter parse
  rw [h]

/-- No `use` stands in a gradient of a balanced document. -/
theorem BalAt.useIdle {ch : List Elem} {t : Token} {ts : List Token} {c : Cursor F} (h : BalAt ch (t :: ts) c) :
    ∀ attrs, t = .start "use".toList attrs → c.inGrad = false := by
  rintro attrs rfl
  cases h with
  | noUse h => exact absurd rfl ((noUse_cons h.noUse).1 attrs)
  | tidy h =>
    have := h.places
    rw [Every] at this
    rw [h.tidy.flags.inGrad]
    cases hi : insideGrad ch with
    | false => rfl
    | true => exact absurd (this.1.2.1 hi) (by decide)

theorem start_painted {fuel : Nat} {m : ErrorMode} {done : List Token} {ch : List Elem} {ts : List Token} {name : Str} {attrs : List Attr}
    {c c' : Cursor F} {u : Unit} {full : List Token} (hj : BalAt ch (.start name attrs :: ts) c)
    (hw : PaintAt fuel m full done ch (.start name attrs :: ts) c) (h : readToken fuel (.start name attrs) c = (.ok u, c')) :
    ∃ top rest st, c'.styleStack = st :: top :: rest ∧ c.styleStack = top :: rest ∧
      (∃ new, c'.svg.svgPaths = c.svg.svgPaths ++ new ∧ ∀ p ∈ new, p.style = st) ∧ Painted fuel m ((done, ⟨name, attrs⟩) :: framesOf done) st := by
  obtain ⟨top, rest, st, c1, h1, h2, h3, h4⟩ := start_stack hj.inv hj.useFine h
  refine ⟨top, rest, st, h3, h1, h4, ?_⟩
  have htop := paintStack_top hw.stack h1
  refine ⟨?_, ?_, fun hf => ?_⟩
  · rw [decls_eq_declared] at h2; exact ⟨_, htop.1, (paint_loop _ hw.table h2).1⟩
  · rw [decls_eq_declared] at h2; exact ⟨_, htop.2.1, (paint_loop _ hw.table h2).2⟩
  · rw [declLoop_transform _ (decls_untransformed (hf _ List.mem_cons_self)) h2]
    exact htop.2.2 fun f hx => hf f (List.mem_cons_of_mem _ hx)

theorem paintAt_step {fuel : Nat} {m : ErrorMode} {full done : List Token} {ch ch' : List Elem} {t : Token} {ts : List Token} {c c' : Cursor F}
    {u : Unit} (hj : BalAt ch (t :: ts) c) (hw : PaintAt fuel m full done ch (t :: ts) c) (hst : Step ch t ch')
    (h : readToken fuel t c = (.ok u, c')) : PaintAt fuel m full (done ++ [t]) ch' ts c' := by
  have hv : viewBoxAfter fuel m done = c.svg.viewBox := viewBoxAfter_run hw.run
  refine ⟨by rw [hw.full]; simp, ?_, ?_, ?_, ?_, ?_⟩
  · rw [readTokens_append, SM.bind_run, hw.run]
    dsimp only
    rw [readTokens_cons, SM.bind_run, h]
    rfl
  · rw [framesOf_snoc]
    have hf := hw.frames
    cases hst with
    | start _ name attrs => simp [noteFrame, hf]
    | stop e ch => simp [noteFrame, hf]
    | chars _ => exact hf
    | other => exact hf
  · have := readToken_noGradDefs fuel t hw.noGrad
    rwa [h] at this
  · rw [gradientsIn_snoc]
    refine readToken_gradTable hw.noGrad hj.useIdle hw.table hv (fun hf => ?_) h
    cases hs : c.styleStack with
    | nil =>
      have := hw.stack
      rw [hs] at this
      cases hfr : framesOf done with
      | nil => rw [hfr] at this; cases this
      | cons f fr => rw [hfr] at this; obtain ⟨st, rest, h1, -⟩ := this; cases h1
    | cons top rest =>
      rw [topTransform, hs]
      exact congrArg some ((paintStack_top hw.stack hs).2.2 hf)
  · rw [framesOf_snoc]
    cases hst with
    | start _ name attrs =>
      obtain ⟨top, rest, st, h1, h2, -, h4⟩ := start_painted hj hw h
      refine ⟨st, top :: rest, h1, h4, ?_⟩
      rw [← h2]; exact hw.stack
    | stop e ch =>
      obtain ⟨-, hE⟩ := stop_stack h
      have hs := hw.stack
      have hf := hw.frames
      cases hfr : framesOf done with
      | nil => rw [hfr] at hf; cases hf
      | cons f fr =>
        rw [hfr] at hs
        obtain ⟨st, rest, h1, -, h2⟩ := hs
        rw [hE.stack, h1]
        exact h2
    | chars _ => rw [chars_fields h]; exact hw.stack
    | other => cases h; exact hw.stack

end GoSvg
