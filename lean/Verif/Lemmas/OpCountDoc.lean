import Verif.Lemmas.OpCount

/-! How many operations a document without `use` draws. -/

set_option linter.unusedSectionVars false

namespace GoSvg

open Spec
open SM (get modify throw lift panic diverge forEach)

variable {F : Type} [GoFloat F] [GoEnv]

/-! ### Elements -/

/-- The size of the attributes of an element. -/
def attrsSize (attrs : List Attr) : Nat := (attrs.map fun a => 1 + a.name.length + a.value.length).sum

theorem attrsSize_cons (a : Attr) (as : List Attr) : attrsSize (a :: as) = 1 + a.name.length + a.value.length + attrsSize as := rfl

/-- At most `n` operations are added to the path. -/
def AddsOps {α : Type} (n : Nat) (m : CM F α) : Prop := ∀ c, (m c).2.pc.path.length ≤ c.pc.path.length + n

theorem addsOps_bind {α β : Type} {n k : Nat} {m : CM F α} {f : α → CM F β} (h : AddsOps n m) (h' : ∀ a, AddsOps k (f a)) :
    AddsOps (n + k) (m >>= f) := by
  intro c
  have h1 := h c
  rw [SM.bind_run]
  rcases hm : m c with ⟨r, d⟩
  rw [hm] at h1
  cases r with
  | ok a => have h2 := h' a d; dsimp only at h1 h2 ⊢; omega
  | _ => dsimp only at h1 ⊢; omega

theorem addsOps_mono {α : Type} {n k : Nat} {m : CM F α} (h : AddsOps n m) (hk : n ≤ k) : AddsOps k m := fun c => (h c).trans (by omega)

theorem addsOps_get : AddsOps (F := F) 0 get := fun _ => Nat.le_refl _
theorem addsOps_lift {α : Type} (r : Res α) : AddsOps (F := F) 0 (lift r) := fun _ => Nat.le_refl _
theorem addsOps_pure {α : Type} (a : α) : AddsOps (F := F) 0 (pure a) := fun _ => Nat.le_refl _

theorem lineF_count (attrs : List Attr) : AddsOps (F := F) 2 (lineF attrs) := by
  unfold lineF
  refine addsOps_mono (addsOps_bind addsOps_get fun _ => addsOps_bind (addsOps_lift _) fun _ => (?_ : AddsOps 2 _)) (by omega)
  intro c
  rw [SM.modify_run]
  simp [PathCursor.addOps]

theorem circleF_count {M : Nat} (hM : FewCurves F M) (attrs : List Attr) : AddsOps (F := F) (M + 2) (circleF attrs) := by
  unfold circleF
  refine addsOps_mono (addsOps_bind addsOps_get fun _ => addsOps_bind (addsOps_lift _) fun v => (?_ : AddsOps (M + 2) _)) (by omega)
  intro c
  split
  · exact Nat.le_add_right _ _
  · rw [SM.modify_run]
    have := hM.arc ⟨v.rx, v.ry, num 0, num 1, num 0, v.cx +. c.pc.curX +. v.rx, v.cy +. c.pc.curY⟩ (v.cx +. c.pc.curX) (v.cy +. c.pc.curY)
      (v.cx +. c.pc.curX +. v.rx) (v.cy +. c.pc.curY)
    simp only [ellipseAt, List.length_append, List.length_cons, List.length_nil]
    omega

theorem rectF_count {M : Nat} (hM : FewCurves F M) (fuel : Nat) (attrs : List Attr) : AddsOps (F := F) M (rectF fuel attrs) := by
  unfold rectF
  refine addsOps_mono (addsOps_bind addsOps_get fun d => addsOps_bind (addsOps_lift _) fun v => (?_ : AddsOps M _)) (by omega)
  intro c
  rcases ho : rectOps fuel d.pc.curX d.pc.curY v with _ | ops
  · exact Nat.le_add_right _ _
  · dsimp only
    rw [SM.modify_run]
    have : ops.length ≤ M := by
      unfold rectOps at ho
      split at ho
      · cases ho; simp
      · exact hM.rect _ _ _ _ _ _ _ _ _ ho
    simp only [PathCursor.addOps, List.length_append]
    omega

theorem pathF_count {M : Nat} (hM : FewCurves F M) : ∀ (attrs : List Attr), AddsOps (F := F) (2 * M * attrsSize attrs) (pathF attrs)
  | [] => addsOps_mono (addsOps_pure _) (Nat.zero_le _)
  | a :: as => by
    have h : AddsOps (F := F) (2 * M * a.value.length) (pathAttr () a) := by
      intro c
      unfold pathAttr
      split
      · unfold onPath
        have h := compilePath_count hM a.value c.pc
        rcases hc : compilePath a.value c.pc with ⟨r, p⟩
        rw [hc] at h
        dsimp only at h ⊢
        omega
      · exact Nat.le_add_right _ _
    refine addsOps_mono (addsOps_bind h fun _ => pathF_count hM as) ?_
    rw [attrsSize_cons, ← Nat.mul_add]
    exact Nat.mul_le_mul_left _ (by omega)

/-- The numbers a polyline works with. -/
theorem polyLoop_count : ∀ (attrs : List Attr) (c : Cursor F),
    (attrLoop polyAttr () attrs c).2.pc.path = c.pc.path ∧
    ((attrLoop polyAttr () attrs c).2.pc.points.length ≤ 2 * attrsSize attrs ∨
      ((attrLoop polyAttr () attrs c).2.pc.points = c.pc.points ∧ ∀ a ∈ attrs, a.name ≠ "points".toList))
  | [], c => ⟨rfl, .inr ⟨rfl, List.forall_mem_nil _⟩⟩
  | a :: as, c => by
    have e : attrLoop (F := F) polyAttr () (a :: as) c = (polyAttr () a >>= fun b => attrLoop polyAttr b as) c := rfl
    rw [e, SM.bind_run, attrsSize_cons]
    have h : (polyAttr () a c).2.pc.path = c.pc.path ∧ ((polyAttr () a c).2.pc.points.length ≤ 2 * a.value.length ∨
        (polyAttr () a c = (.ok (), c) ∧ a.name ≠ "points".toList)) := by
      by_cases hn : a.name = "points".toList
      · have e : (polyAttr () a : CM F Unit) = _ := if_pos hn
        rw [e]
        have hg := getPoints_count a.value c.pc
        rcases hc : getPoints a.value c.pc with ⟨r, p⟩
        rw [hc] at hg
        dsimp only at hg ⊢
        rw [hc]
        dsimp only
        split <;> exact ⟨hg.2, .inl hg.1⟩
      · have e : (polyAttr () a : CM F Unit) = pure () := if_neg hn
        rw [e]
        exact ⟨rfl, .inr ⟨rfl, hn⟩⟩
    rcases hp : (polyAttr () a : CM F Unit) c with ⟨r, d⟩
    rw [hp] at h
    dsimp only at h
    cases r with
    | ok u =>
      dsimp only
      cases u
      obtain ⟨i1, i2⟩ := polyLoop_count as d
      refine ⟨i1.trans h.1, ?_⟩
      rcases i2 with i2 | ⟨i2, i3⟩
      · exact .inl (i2.trans (by omega))
      · rcases h.2 with h2 | ⟨h2, h3⟩
        · exact .inl ((congrArg List.length i2).le.trans (by omega))
        · obtain ⟨-, rfl⟩ := Prod.mk.inj h2
          exact .inr ⟨i2, List.forall_mem_cons.2 ⟨h3, i3⟩⟩
    | _ =>
      dsimp only
      refine ⟨h.1, .inl ?_⟩
      rcases h.2 with h2 | ⟨h2, -⟩
      · omega
      · cases h2

theorem polyline_points (attrs : List Attr) (c : Cursor F) (h : ∃ a ∈ attrs, a.name = "points".toList) :
    (polylineF attrs c).2.pc.points.length ≤ 2 * attrsSize attrs ∧
    (polylineF attrs c).2.pc.path.length ≤ c.pc.path.length + 2 * attrsSize attrs := by
  obtain ⟨h1, h2⟩ := polyLoop_count attrs c
  have h2 : (attrLoop polyAttr () attrs c).2.pc.points.length ≤ 2 * attrsSize attrs := by
    rcases h2 with h2 | ⟨-, h2⟩
    · exact h2
    · obtain ⟨a, ha, hn⟩ := h
      exact absurd hn (h2 a ha)
  unfold polylineF
  rw [SM.bind_run]
  rcases hr : attrLoop (F := F) polyAttr () attrs c with ⟨r, d⟩
  rw [hr] at h1 h2
  dsimp only at h1 h2
  cases r with
  | ok u =>
    dsimp only
    rw [SM.modify_run]
    unfold polyDraw
    split
    · refine ⟨h2, ?_⟩
      have := lineOps_length d.pc _ (d.pc.points.drop 2) (Nat.le_refl _)
      rw [List.length_drop] at this
      simp only [PathCursor.addOps, List.length_append, List.length_cons, h1]
      omega
    · exact ⟨h2, by dsimp only; rw [h1]; omega⟩
  | _ => exact ⟨h2, by dsimp only; rw [h1]; omega⟩

theorem polygon_points (attrs : List Attr) (c : Cursor F) (h : ∃ a ∈ attrs, a.name = "points".toList) :
    (polygonF attrs c).2.pc.path.length ≤ c.pc.path.length + (2 * attrsSize attrs + 1) := by
  have h1 := (polyline_points attrs c h).2
  unfold polygonF
  rcases hr : polylineF attrs c with ⟨r, d⟩
  rw [hr] at h1
  dsimp only at h1 ⊢
  have h3 : (if d.pc.points.length > 4 then { d with pc := d.pc.addOps [.close] } else d).pc.path.length
      ≤ c.pc.path.length + (2 * attrsSize attrs + 1) := by
    split
    · simp only [PathCursor.addOps, List.length_append, List.length_cons, List.length_nil]; omega
    · omega
  cases r with
  | ok u => exact h3
  | err e => exact h3
  | _ => dsimp only; omega

/-! ### The whole state -/

/-- The operations held by the mask being read. -/
def maskOps (c : Cursor F) : Nat := match c.mask with | some m => opsIn m.svgPaths | none => 0

/-- All operations held: in the document, the masks, the mask being read, and the path being read. -/
def heldOps (c : Cursor F) : Nat := opsOf c.svg + maskOps c + c.pc.path.length

theorem heldOps_eq {c d : Cursor F} (h1 : d.svg.svgPaths = c.svg.svgPaths) (h2 : d.svg.svgMasks = c.svg.svgMasks) (h3 : maskOps d ≤ maskOps c)
    {n : Nat} (h4 : d.pc.path.length ≤ c.pc.path.length + n) : heldOps d ≤ heldOps c + n := by
  unfold heldOps opsOf
  rw [h1, h2]
  omega

theorem maskOps_draw {c d : Cursor F} (h : DrawR c d) : maskOps d = maskOps c := by rw [maskOps, h.eq]; rfl

theorem element_mask {fuel : Nat} {name : Str} {df : List Attr → CM F Unit}
    (h : drawFuncs fuel (useF fuel) name = some df) (hu : name ≠ "use".toList) (attrs : List Attr) (c : Cursor F) :
    maskOps (df attrs c).2 ≤ maskOps c := by
  rcases drawFuncs_cases h with ⟨-, h⟩ | ⟨-, rfl⟩ | ⟨-, rfl⟩ | ⟨-, rfl⟩ | ⟨-, rfl⟩ | ⟨-, rfl⟩ | ⟨-, rfl⟩ | ⟨-, rfl⟩ | ⟨-, rfl⟩ |
    ⟨-, rfl⟩ | ⟨h, -⟩
  · exact (maskOps_draw (h attrs c)).le
  · rw [maskOps, (svgF_keeps attrs c).eq]; exact Nat.le_refl _
  · exact Nat.le_refl _
  · rw [maskOps, (stopF_keeps attrs c).eq]; exact Nat.le_refl _
  · exact Nat.le_refl _
  · exact Nat.le_refl _
  · exact Nat.le_refl _
  · rw [maskOps, (linearGradientF_keeps attrs c).eq]; exact Nat.le_refl _
  · rw [maskOps, (radialGradientF_keeps attrs c).eq]; exact Nat.le_refl _
  · unfold maskF
    rw [SM.bind_run, SM.get_run]
    dsimp only
    rw [SM.bind_run, SM.lift_run]
    cases Res.loop (maskAttr c.svg.viewBox) ⟨[], num 0, num 0, num 0, num 0⟩ attrs
    · dsimp only; rw [SM.modify_run]; exact Nat.zero_le _
    · exact Nat.le_refl _
    · exact Nat.le_refl _
    · exact Nat.le_refl _
  · exact absurd h hu

theorem element_path {M : Nat} (hM : FewCurves F M) {fuel : Nat} {name : Str} {df : List Attr → CM F Unit}
    (h : drawFuncs fuel (useF fuel) name = some df) {attrs : List Attr} (hd : DrawsOwn name attrs) (c : Cursor F) :
    (df attrs c).2.pc.path.length ≤ c.pc.path.length + (2 * M * attrsSize attrs + M + 2) := by
  have h2 := hM.two
  have hs : 2 * attrsSize attrs ≤ 2 * M * attrsSize attrs := Nat.mul_le_mul_right _ (by omega)
  by_cases ht : name ∈ shapeTags
  · simp only [shapeTags, List.mem_cons, List.not_mem_nil, or_false] at ht
    rcases ht with rfl | rfl | rfl | rfl | rfl | rfl | rfl
    · cases h; exact addsOps_mono (lineF_count attrs) (by omega) c
    · cases h; exact addsOps_mono (rectF_count hM fuel attrs) (by omega) c
    · cases h; exact addsOps_mono (circleF_count hM attrs) (by omega) c
    · cases h; exact addsOps_mono (circleF_count hM attrs) (by omega) c
    · cases h; have := (polyline_points attrs c (hd.2 (.inl rfl))).2; omega
    · cases h; have := polygon_points attrs c (hd.2 (.inr rfl)); omega
    · cases h; exact addsOps_mono (pathF_count hM attrs) (by omega) c
  · have := silent_path h ht hd.1 attrs c
    unfold PathR at this
    rw [this]
    omega

theorem emit_held {c d : Cursor F} (h : Emit c d) : heldOps d ≤ heldOps c := by
  cases h with
  | nothing => exact Nat.le_refl _
  | lost h hm hn =>
    show opsOf c.svg + maskOps c + 0 ≤ opsOf c.svg + maskOps c + _
    omega
  | mask h hm m hn st rest hs =>
    unfold heldOps maskOps
    rw [hn]
    simp [opsIn]
    omega
  | doc h hm st rest hs =>
    unfold heldOps maskOps opsOf
    simp [opsIn]
    omega

theorem insert_held (ms : GoMap (SvgMask F)) (k : Str) (m : SvgMask F) :
    ((ms.insert k m).map fun e => opsIn e.2.svgPaths).sum ≤ opsIn m.svgPaths + (ms.map fun e => opsIn e.2.svgPaths).sum := by
  unfold GoMap.insert
  rw [List.map_cons, List.sum_cons]
  exact Nat.add_le_add_left (List.Sublist.sum_le_sum ((List.filter_sublist).map _) (fun _ _ => Nat.zero_le _)) _

theorem stop_held (name : Str) (c : Cursor F) : heldOps (readEndElement name c).2 ≤ heldOps c := by
  unfold readEndElement
  rw [SM.bind_run]
  unfold popStyle
  split
  · rename_i h
    split at h
    · cases h
    · obtain ⟨-, rfl⟩ := Prod.mk.inj h
      rw [SM.modify_run]
      dsimp only
      split
      · split <;> exact Nat.le_refl _
      split
      · split
        · rename_i m hm
          unfold heldOps maskOps opsOf
          have := insert_held c.svg.svgMasks m.id m
          dsimp only at hm ⊢
          rw [hm]
          dsimp only
          omega
        · exact Nat.le_refl _
      split
      · exact Nat.le_refl _
      split
      · exact Nat.le_refl _
      split
      · split <;> exact Nat.le_refl _
      split
      · exact Nat.le_refl _
      · exact Nat.le_refl _
  · rename_i h
    split at h <;> cases h
  · rename_i h
    split at h <;> cases h
    exact Nat.le_refl _
  · rename_i h
    split at h <;> cases h

theorem start_held {M : Nat} (hM : FewCurves F M) (fuel : Nat) {name : Str} {attrs : List Attr} (hd : DrawsOwn name attrs) (c : Cursor F) :
    heldOps (readStartElement fuel name attrs c).2 ≤ heldOps c + (2 * M * attrsSize attrs + M + 2) := by
  have key : ∀ df : List Attr → CM F Unit, drawFuncs fuel (useF fuel) name = some df →
      heldOps (df attrs c).2 ≤ heldOps c + (2 * M * attrsSize attrs + M + 2) := by
    intro df h
    have hp := drawFuncs_plain h hd.1 attrs c
    exact heldOps_eq hp.svgPaths hp.svgMasks (element_mask h hd.1 attrs c) (element_path hM h hd c)
  rcases readStartElement_cases fuel name attrs c with ⟨-, -, -, -, h⟩ | ⟨-, ⟨-, h⟩ | ⟨df, hf, ⟨-, h⟩ | ⟨-, c', hE, h⟩ | ⟨-, -, h⟩⟩⟩
  · rw [h]
    dsimp only
    rw [recordDef_eq]
    exact Nat.le_add_right _ _
  · rw [h, (handleError_styleR _ c).eq]
    exact Nat.le_add_right _ _
  · rw [h]; exact key df hf
  · rw [h]; exact (emit_held hE).trans (key df hf)
  · rw [h]; exact key df hf

theorem style_held (attrs : List Attr) (c : Cursor F) : heldOps (pushStyle attrs c).2 ≤ heldOps c := by
  rcases pushStyle_frame attrs c with ⟨top, rest, st, c1, -, -, h, h'⟩ | ⟨-, h⟩
  · rw [h']; dsimp only; rw [h.eq]; exact Nat.le_refl _
  · rw [h.eq]; exact Nat.le_refl _

theorem token_held {M : Nat} (hM : FewCurves F M) (fuel : Nat) (t : Token) (hd : ∀ name attrs, t = .start name attrs → DrawsOwn name attrs)
    (c : Cursor F) : heldOps (readToken fuel t c).2 ≤ heldOps c + 2 * M * tokenSize t := by
  have h2 := hM.two
  cases t with
  | start name attrs =>
    have e : readToken (F := F) fuel (.start name attrs) c = (pushStyle attrs >>= fun _ => readStartElement fuel name attrs) c := rfl
    rw [e, SM.bind_run]
    have h := style_held attrs c
    rcases hr : pushStyle attrs c with ⟨r, d⟩
    rw [hr] at h
    cases r with
    | ok u =>
      dsimp only at h ⊢
      have h1 := start_held hM fuel (hd name attrs rfl) d
      have e : 2 * M * tokenSize (.start name attrs) = 2 * M * attrsSize attrs + 2 * M * (1 + name.length) := by
        show 2 * M * (1 + name.length + attrsSize attrs) = _
        ring
      have h3 : 2 * M * 1 ≤ 2 * M * (1 + name.length) := Nat.mul_le_mul_left _ (by omega)
      omega
    | _ => dsimp only at h ⊢; omega
  | stop name => exact (stop_held name c).trans (Nat.le_add_right _ _)
  | chars s =>
    have h := (readChars_keeps s c).eq
    show heldOps (readChars s c).2 ≤ _
    rw [h]
    exact Nat.le_add_right _ _
  | other => exact Nat.le_add_right _ _

theorem tokens_held {M : Nat} (hM : FewCurves F M) (fuel : Nat) : ∀ (ts : List Token), NoReuse ts → ∀ c : Cursor F,
    heldOps (readTokens fuel ts c).2 ≤ heldOps c + 2 * M * docSize ts
  | [], _, _ => Nat.le_add_right _ _
  | t :: ts, hp, c => by
    have h := token_held hM fuel t (hp t (List.mem_cons_self ..)) c
    have e : readTokens (F := F) fuel (t :: ts) c = (readToken fuel t >>= fun _ => readTokens fuel ts) c := rfl
    rw [e, SM.bind_run]
    have ed : 2 * M * docSize (t :: ts) = 2 * M * tokenSize t + 2 * M * docSize ts := by
      show 2 * M * (tokenSize t + docSize ts) = _
      ring
    rcases hr : readToken fuel t c with ⟨r, d⟩
    rw [hr] at h
    cases r with
    | ok u =>
      dsimp only at h ⊢
      have := tokens_held hM fuel ts (fun t ht => hp t (List.mem_cons_of_mem _ ht)) d
      omega
    | _ => dsimp only at h ⊢; omega

end GoSvg
