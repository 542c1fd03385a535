import Verif.Lemmas.Walk

/-! More fuel does not change a result: what does not run out of fuel is the same with more of it. -/

set_option linter.unusedSectionVars false

namespace GoSvg

open Spec

variable {F : Type} [GoFloat F] [GoEnv]

open SM (get modify throw lift panic diverge forEach)

/-- The computation `m'` gives what `m` gives, where `m` does not run out of fuel. -/
def Ext {σ α : Type} (m m' : SM σ α) : Prop := ∀ c, (m c).1 ≠ .diverge → m' c = m c

theorem ext_refl {σ α : Type} (m : SM σ α) : Ext m m := fun _ _ => rfl

theorem ext_bind {σ α β : Type} {m m' : SM σ α} {f f' : α → SM σ β} (h : Ext m m') (hf : ∀ a, Ext (f a) (f' a)) :
    Ext (m >>= f) (m' >>= f') := by
  intro c hc
  rw [SM.bind_run] at hc ⊢
  rw [SM.bind_run]
  have hm := h c
  rcases hr : m c with ⟨r, c1⟩
  rw [hr] at hc hm
  cases r with
  | ok a => rw [hm (fun h => nomatch h)]; exact hf a c1 hc
  | err e => rw [hm (fun h => nomatch h)]
  | panic s => rw [hm (fun h => nomatch h)]
  | diverge => exact absurd rfl hc

theorem ext_ite {σ α : Type} {p : Prop} [Decidable p] {m m' n n' : SM σ α} (h : Ext m m') (h' : Ext n n') :
    Ext (if p then m else n) (if p then m' else n') := by
  split
  · exact h
  · exact h'

theorem raise_more {t l x : F} : ∀ {n n' : Nat}, n ≤ n' → raise n t l = some x → raise n' t l = some x := by
  intro n
  induction n generalizing t with
  | zero =>
    intro n' hn h
    rw [raise.eq_def] at h ⊢
    dsimp only at h ⊢
    split at h
    · cases h
    · rename_i hl; rw [if_neg hl]; exact h
  | succ n ih =>
    intro n' hn h
    obtain ⟨k, rfl⟩ : ∃ k, n' = k + 1 := ⟨n' - 1, by omega⟩
    rw [raise.eq_def] at h ⊢
    dsimp only at h ⊢
    split at h
    · rename_i hl; rw [if_pos hl]; exact ih (by omega) h
    · rename_i hl; rw [if_neg hl]; exact h

theorem addArcCirc_more {n n' : Nat} (hn : n ≤ n') {m : Matrix2D F} {a s1 s2 : Pt} {cw : Bool} {ts te : Int} {fp : Pt → Path} {p : Path}
    (h : addArcCirc n m a s1 s2 cw ts te fp = some p) : addArcCirc n' m a s1 s2 cw ts te fp = some p := by
  unfold addArcCirc at h ⊢
  dsimp only at h ⊢
  rw [Option.map_eq_some_iff] at h ⊢
  obtain ⟨th, h1, h2⟩ := h
  refine ⟨th, ?_, h2⟩
  split at h1
  · rename_i hc
    rw [if_pos hc]
    rw [Option.map_eq_some_iff] at h1 ⊢
    obtain ⟨x, h3, h4⟩ := h1
    exact ⟨x, raise_more hn h3, h4⟩
  · rename_i hc
    rw [if_neg hc]
    rw [Option.map_eq_some_iff] at h1 ⊢
    obtain ⟨x, h3, h4⟩ := h1
    exact ⟨x, raise_more hn h3, h4⟩

theorem roundGap_more {n n' : Nat} (hn : n ≤ n') {m : Matrix2D F} {a t l : Pt} {p : Path}
    (h : roundGap n m a t l = some p) : roundGap n' m a t l = some p := by
  unfold roundGap at h ⊢
  rw [Option.map_eq_some_iff] at h ⊢
  obtain ⟨x, h1, h2⟩ := h
  exact ⟨x, addArcCirc_more hn h1, h2⟩

theorem addRoundRect_more {n n' : Nat} (hn : n ≤ n') {minX minY maxX maxY rx ry rot : F} {p : Path}
    (h : addRoundRect n minX minY maxX maxY rx ry rot = some p) : addRoundRect n' minX minY maxX maxY rx ry rot = some p := by
  unfold addRoundRect at h ⊢
  by_cases h0 : (GoFloat.le rx (num 0) || GoFloat.le ry (num 0)) = true
  · rw [if_pos h0] at h ⊢; exact h
  · rw [if_neg h0] at h ⊢
    dsimp only at h ⊢
    split at h
    · rename_i h1 h2 h3 h4
      rw [roundGap_more hn h1, roundGap_more hn h2, roundGap_more hn h3, roundGap_more hn h4]
      exact h
    · cases h

theorem rectOps_more {n n' : Nat} (hn : n ≤ n') {x y : F} {v : RectVars F} {p : Path} (h : rectOps n x y v = some p) :
    rectOps n' x y v = some p := by
  unfold rectOps at h ⊢
  by_cases h0 : (GoFloat.eq v.w (num 0) || GoFloat.eq v.h (num 0)) = true
  · rw [if_pos h0] at h ⊢; exact h
  · rw [if_neg h0] at h ⊢
    exact addRoundRect_more hn h

theorem rectF_ext {n n' : Nat} (hn : n ≤ n') (attrs : List Attr) : Ext (rectF n attrs : CM F Unit) (rectF n' attrs) := by
  unfold rectF
  refine ext_bind (ext_refl _) fun c => ext_bind (ext_refl _) fun v => ?_
  cases h : rectOps n c.pc.curX c.pc.curY v with
  | none => intro d hd; exact absurd rfl hd
  | some ops => rw [rectOps_more hn h]; exact ext_refl _

/-- Two element functions, the second with more fuel. -/
def DrawExt (o o' : Option (List Attr → CM F Unit)) : Prop :=
  (o = none ∧ o' = none) ∨ ∃ df df', o = some df ∧ o' = some df' ∧ ∀ attrs, Ext (df attrs) (df' attrs)

theorem drawExt_some {f g : List Attr → CM F Unit} (h : ∀ attrs, Ext (f attrs) (g attrs)) : DrawExt (some f) (some g) :=
  .inr ⟨f, g, rfl, rfl, h⟩

theorem drawExt_ite {p : Prop} [Decidable p] {f f' : List Attr → CM F Unit} {o o' : Option (List Attr → CM F Unit)}
    (h : ∀ attrs, Ext (f attrs) (f' attrs)) (ho : DrawExt o o') : DrawExt (if p then some f else o) (if p then some f' else o') := by
  by_cases hp : p
  · rw [if_pos hp, if_pos hp]; exact drawExt_some h
  · rw [if_neg hp, if_neg hp]; exact ho

theorem drawFuncs_ext {n n' : Nat} (hn : n ≤ n') {use use' : List Attr → CM F Unit} (hu : ∀ attrs, Ext (use attrs) (use' attrs)) (tag : Str) :
    DrawExt (drawFuncs n use tag) (drawFuncs n' use' tag) := by
  unfold drawFuncs
  have r : ∀ (f : List Attr → CM F Unit) attrs, Ext (f attrs) (f attrs) := fun f attrs => ext_refl _
  refine drawExt_ite (r _) (drawExt_ite (r _) (drawExt_ite (r _) (drawExt_ite (r _) (drawExt_ite (rectF_ext hn) ?_))))
  refine drawExt_ite (r _) (drawExt_ite (r _) (drawExt_ite (r _) (drawExt_ite (r _) (drawExt_ite (r _) ?_))))
  refine drawExt_ite (r _) (drawExt_ite (r _) (drawExt_ite (r _) (drawExt_ite (r _) (drawExt_ite (r _) ?_))))
  exact drawExt_ite (r _) (drawExt_ite hu (.inl ⟨rfl, rfl⟩))

theorem useLoop_ext {draw draw' : Str → Option (List Attr → CM F Unit)}
    (h : ∀ tag, DrawExt (draw tag) (draw' tag)) :
    ∀ ds : List Definition, Ext (useLoop draw ds) (useLoop draw' ds)
  | [] => ext_refl _
  | d :: ds => by
    have ih := useLoop_ext h ds
    rw [useLoop, useLoop]
    refine ext_ite (ext_bind (ext_refl _) fun _ => ih) (ext_bind (ext_refl _) fun _ => ?_)
    rcases h d.tag with ⟨h1, h2⟩ | ⟨df, df', h1, h2, h3⟩
    · rw [h1, h2]; exact ext_refl _
    · rw [h1, h2]
      refine ext_bind (h3 _) fun _ => ext_ite (ext_bind (ext_refl _) fun _ => ih) ih

theorem useBody_ext {draw draw' : Str → Option (List Attr → CM F Unit)}
    (h : ∀ ds, Ext (useLoop draw ds) (useLoop draw' ds)) (href : Str) : Ext (useBody draw href) (useBody draw' href) := by
  unfold useBody
  apply ext_ite
  · refine ext_bind (ext_refl _) fun _ => ?_
    split
    · refine ext_bind (ext_refl _) fun c => ?_
      cases c.svg.defs.find _ with
      | none => exact ext_refl _
      | some ds => exact h ds
    · exact ext_refl _
  · split
    · refine ext_bind (ext_refl _) fun c => ?_
      cases c.svg.defs.find _ with
      | none => exact ext_refl _
      | some ds => exact h ds
    · exact ext_refl _

theorem withOffset_ext {x y : F} {m m' : CM F Unit} (h : Ext m m') : Ext (withOffset x y m) (withOffset x y m') := by
  intro c hc
  have h1 := h { c with pc := { c.pc with curX := x, curY := y } }
  unfold withOffset at hc ⊢
  dsimp only at hc
  rw [h1 hc]

theorem useF_ext : ∀ {n n' : Nat}, n ≤ n' → ∀ attrs, Ext (useF n attrs : CM F Unit) (useF n' attrs)
  | 0, _, _, _ => fun _ hc => absurd rfl hc
  | n + 1, 0, hn, _ => absurd hn (by omega)
  | n + 1, n' + 1, hn, attrs => by
    have hn' : n ≤ n' := by omega
    rw [useF, useF]
    exact ext_bind (ext_refl _) fun c => ext_bind (ext_refl _) fun v => withOffset_ext
      (useBody_ext (useLoop_ext (drawFuncs_ext hn' (useF_ext hn'))) _)

theorem readStartElement_ext {n n' : Nat} (hn : n ≤ n') (name : Str) (attrs : List Attr) :
    Ext (readStartElement n name attrs : CM F Unit) (readStartElement n' name attrs) := by
  intro c hc
  unfold readStartElement at hc ⊢
  dsimp only at hc ⊢
  split
  · rfl
  · rename_i h0
    rw [if_neg h0] at hc
    rcases drawFuncs_ext (F := F) hn (useF_ext hn) name with ⟨h1, h2⟩ | ⟨df, df', h1, h2, h3⟩
    · rw [h1, h2]
    · rw [h1] at hc
      rw [h1, h2]
      dsimp only at hc ⊢
      have hd : (df attrs c).1 ≠ .diverge := by
        intro h
        rcases hr : df attrs c with ⟨r, c1⟩
        rw [hr] at h hc
        dsimp only at h
        subst h
        exact hc rfl
      rw [h3 attrs c hd]

theorem readToken_ext {n n' : Nat} (hn : n ≤ n') (t : Token) : Ext (readToken n t : CM F Unit) (readToken n' t) := by
  cases t with
  | start name attrs => exact ext_bind (ext_refl _) fun _ => readStartElement_ext hn name attrs
  | _ => exact ext_refl _

theorem readTokens_ext {n n' : Nat} (hn : n ≤ n') : ∀ ts, Ext (readTokens n ts : CM F Unit) (readTokens n' ts)
  | [] => ext_refl _
  | t :: ts => ext_bind (readToken_ext hn t) fun _ => readTokens_ext hn ts

/-- The outcome of a parse that ends does not depend on the fuel. -/
theorem parse_more {n n' : Nat} (hn : n ≤ n') {m : ErrorMode} {ts : List Token} {fin : StreamEnd}
    (h : parse (F := F) n m ts fin ≠ .diverge) : parse (F := F) n' m ts fin = parse (F := F) n m ts fin := by
  have h1 := readTokens_ext (F := F) hn ts (initCursor m)
  have h2 : (readTokens n ts (initCursor (F := F) m)).1 ≠ .diverge := by
    intro hd
    apply h
    unfold parse
    rcases hr : readTokens n ts (initCursor (F := F) m) with ⟨r, c⟩
    rw [hr] at hd
    dsimp only at hd
    subst hd
    rfl
  unfold parse
  rw [h1 h2]

end GoSvg
