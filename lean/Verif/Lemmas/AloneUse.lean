import Verif.Lemmas.Alone

/-! What an element leaves behind plays no part in a `use` either, as long as the recorded polylines and polygons have points. -/

set_option linter.unusedSectionVars false

namespace GoSvg

open Spec

variable {F : Type} [GoFloat F] [GoEnv]

open SM (get modify throw lift panic diverge forEach)

/-- A polyline or polygon has points. -/
def PointedDef (d : Definition) : Prop := d.tag = "polyline".toList ∨ d.tag = "polygon".toList → ∃ v, Given d.attrs "points" v

/-- The same as `Alone`, when the recorded polylines and polygons have points. -/
def AloneP {α : Type} (m : CM F α) : Prop :=
  ∀ (c : Cursor F) (k : Past F), DefsQ PointedDef c → ∃ q : PathCursor F, m (c.behind k) = ((m c).1, (m c).2.behind (k.read q))

variable {α β : Type}

theorem Alone.pointed {m : CM F α} (h : Alone m) : AloneP m := fun c k _ => h c k

theorem aloneP_bind {m : CM F α} {f : α → CM F β} (h1 : AloneP m) (hk : Keeps ElemR m) (h2 : ∀ a, AloneP (f a)) : AloneP (m >>= f) := by
  intro c k hc
  obtain ⟨q, e⟩ := h1 c k hc
  have hd := defsQ_elem (hk c) hc
  rw [SM.bind_run, SM.bind_run, e]
  generalize m c = x at hd ⊢
  obtain ⟨r, c1⟩ := x
  cases r with
  | ok a => exact h2 a c1 (k.read q) hd
  | err e => exact ⟨q, rfl⟩
  | panic e => exact ⟨q, rfl⟩
  | diverge => exact ⟨q, rfl⟩

theorem aloneP_ite {p : Prop} [Decidable p] {m n : CM F α} (h1 : AloneP m) (h2 : AloneP n) : AloneP (if p then m else n) := by
  split
  · exact h1
  · exact h2

theorem useLoop_alone {draw : Str → Option (List Attr → CM F Unit)}
    (hd : ∀ d df, PointedDef d → draw d.tag = some df → AloneP (df d.attrs) ∧ Keeps ElemR (df d.attrs)) :
    ∀ (ds : List Definition), (∀ d ∈ ds, PointedDef d) → AloneP (useLoop draw ds)
  | [], _ => (alone_pure _).pointed
  | d :: ds, hq => by
    have ih := useLoop_alone hd ds fun e he => hq e (List.mem_cons_of_mem _ he)
    have hpop : AloneP (do popStyle; useLoop draw ds) := aloneP_bind popStyle_alone.pointed popStyle_elem fun _ => ih
    rw [useLoop]
    refine aloneP_ite hpop (aloneP_bind (pushStyle_alone _).pointed (pushStyle_elem _) fun _ => ?_)
    cases hdr : draw d.tag with
    | none => exact (handleError_alone _).pointed
    | some df =>
      obtain ⟨h1, h2⟩ := hd d df (hq d List.mem_cons_self) hdr
      exact aloneP_bind h1 h2 fun _ => aloneP_ite hpop ih

theorem useBody_alone {draw : Str → Option (List Attr → CM F Unit)}
    (hd : ∀ d df, PointedDef d → draw d.tag = some df → AloneP (df d.attrs) ∧ Keeps ElemR (df d.attrs)) (href : Str) : AloneP (useBody draw href) := by
  have key : ∀ P : CM F Unit, P = (match href with
      | '#' :: id => do
        let c ← get
        match c.svg.defs.find id with
        | none => throw .useNotFound
        | some defs => useLoop draw defs
      | _ => throw .useNotID : CM F Unit) → AloneP P := by
    intro P hP
    rw [hP]
    split
    · rename_i id
      intro c k hc
      rw [SM.bind_run, SM.bind_run, SM.get_run, SM.get_run]
      dsimp only
      rw [show (c.behind k).svg.defs = c.svg.defs from rfl]
      cases hf : c.svg.defs.find id with
      | none => exact ⟨k.pc, rfl⟩
      | some ds => exact useLoop_alone hd ds (hc.defs id ds hf) c k hc
    · exact (alone_throw _).pointed
  unfold useBody
  refine aloneP_ite ?_ (key _ rfl)
  intro c k _
  exact ⟨k.pc, rfl⟩

theorem useF_alone : ∀ (fuel : Nat) (attrs : List Attr), AloneP (useF fuel attrs : CM F Unit)
  | 0, _ => alone_diverge.pointed
  | fuel + 1, attrs => by
    intro c k hc
    rw [useF]
    have hb : ∀ href, AloneP (useBody (drawFuncs fuel (useF fuel)) href : CM F Unit) := by
      intro href
      refine useBody_alone ?_ _
      intro d df hq h
      refine ⟨?_, drawFuncs_elem h _⟩
      by_cases hu : d.tag = "use".toList
      · rw [hu, drawFuncs_use] at h; cases h; exact useF_alone fuel _
      · exact (drawFuncs_alone h hu hq).pointed
    rw [SM.bind_run, SM.bind_run, SM.get_run, SM.get_run]
    dsimp only
    rw [SM.bind_run, SM.bind_run, SM.lift_run, SM.lift_run, show (c.behind k).svg.viewBox = c.svg.viewBox from rfl]
    cases Res.loop (useAttr c.svg.viewBox) ⟨[], num 0, num 0⟩ attrs with
    | err e => exact ⟨k.pc, rfl⟩
    | panic e => exact ⟨k.pc, rfl⟩
    | diverge => exact ⟨k.pc, rfl⟩
    | ok v =>
      dsimp only
      unfold withOffset
      obtain ⟨q, e⟩ := hb v.href { c with pc := { c.pc with curX := v.x, curY := v.y } } k ⟨hc.defs, hc.current⟩
      refine ⟨q, ?_⟩
      show (match useBody (drawFuncs fuel (useF fuel)) v.href (({ c with pc := { c.pc with curX := v.x, curY := v.y } } : Cursor F).behind k) with
          | (r, c) => (r, ({ c with pc := { c.pc with curX := num 0, curY := num 0 } } : Cursor F))) = _
      rw [e]
      rcases useBody (drawFuncs fuel (useF fuel)) v.href { c with pc := { c.pc with curX := v.x, curY := v.y } } with ⟨r2, c2⟩
      rfl

theorem readUse_alone (fuel : Nat) (attrs : List Attr) : AloneP (readStartElement fuel "use".toList attrs : CM F Unit) := by
  intro c k hc
  unfold readStartElement
  dsimp only
  rw [show (c.behind k).inDefs = c.inDefs from rfl, show (c.behind k).inGrad = c.inGrad from rfl]
  split
  · refine ⟨k.pc, ?_⟩
    unfold recordDef
    dsimp only
    rw [show (c.behind k).currentDef = c.currentDef from rfl]
    cases hcd : c.currentDef with
    | nil => simp only [Cursor.behind, Past.read, hcd]
    | cons d ds =>
      dsimp only
      split
      · rfl
      · simp only [Cursor.behind, Past.read, hcd]
  · rw [drawFuncs_use]
    dsimp only
    obtain ⟨q1, h1⟩ := useF_alone fuel attrs c k hc
    rw [h1]
    rcases useF fuel attrs c with ⟨r, c1⟩
    obtain ⟨q2, h2⟩ := emitPath_alone c1 (k.read q1)
    cases r with
    | panic s => exact ⟨q1, rfl⟩
    | diverge => exact ⟨q1, rfl⟩
    | ok u =>
      refine ⟨q2, ?_⟩
      dsimp only
      rw [h2]
      rcases emitPath c1 with ⟨s, c2⟩
      cases s <;> rfl
    | err u =>
      refine ⟨q2, ?_⟩
      dsimp only
      rw [h2]
      rcases emitPath c1 with ⟨s, c2⟩
      cases s <;> rfl

theorem readToken_aloneP (fuel : Nat) {t : Token} (h : TokQ PointedDef t) : AloneP (readToken fuel t : CM F Unit) := by
  cases t with
  | start name attrs =>
    by_cases hu : name = "use".toList
    · subst hu
      exact aloneP_bind (pushStyle_alone attrs).pointed (pushStyle_elem attrs) fun _ => readUse_alone fuel attrs
    · exact (readToken_alone fuel (.start name attrs) ⟨hu, h⟩).pointed
  | stop name => exact (readToken_alone fuel (.stop name) trivial).pointed
  | chars x => exact (readToken_alone fuel (.chars x) trivial).pointed
  | other => exact (readToken_alone fuel .other trivial).pointed

theorem pointed_endg : PointedDef ⟨[], "endg".toList, []⟩ := fun h => by
  rcases h with h | h <;> exact absurd h (by decide)

theorem readTokens_aloneP (fuel : Nat) : ∀ (ts : List Token), (∀ t ∈ ts, TokQ PointedDef t) → AloneP (readTokens fuel ts : CM F Unit)
  | [], _ => (alone_pure ()).pointed
  | t :: ts, h => by
    intro c k hc
    obtain ⟨q, e⟩ := readToken_aloneP fuel (h t List.mem_cons_self) c k hc
    have hd := readToken_defsQ pointed_endg fuel (h t List.mem_cons_self) hc
    rw [readTokens_cons, readTokens_cons, SM.bind_run, SM.bind_run, e]
    generalize readToken fuel t c = x at hd ⊢
    obtain ⟨r, c1⟩ := x
    cases r with
    | ok a => exact readTokens_aloneP fuel ts (fun u hu => h u (List.mem_cons_of_mem _ hu)) c1 (k.read q) hd
    | err e => exact ⟨q, rfl⟩
    | panic e => exact ⟨q, rfl⟩
    | diverge => exact ⟨q, rfl⟩

theorem readTokens_pointed (fuel : Nat) : ∀ (ts : List Token) {c : Cursor F}, (∀ t ∈ ts, TokQ PointedDef t) → DefsQ PointedDef c →
    DefsQ PointedDef (readTokens fuel ts c).2
  | [], _, _, hc => hc
  | t :: ts, c, h, hc => by
    have hd := readToken_defsQ pointed_endg fuel (h t List.mem_cons_self) hc
    rw [readTokens_cons, SM.bind_run]
    generalize readToken fuel t c = x at hd ⊢
    obtain ⟨r, c1⟩ := x
    cases r with
    | ok a => exact readTokens_pointed fuel ts (fun u hu => h u (List.mem_cons_of_mem _ hu)) hd
    | err e => exact hd
    | panic e => exact hd
    | diverge => exact hd

end GoSvg
