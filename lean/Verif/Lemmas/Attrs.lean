import Verif.Spec.Attrs
import Verif.Model.Elements

/-! Loops over attribute lists. -/

set_option linter.unusedSectionVars false

namespace GoSvg

open Spec

variable {F : Type} [GoFloat F] [GoEnv]

/-- What a local variable holds after the loop when only attributes with a name in `p` set it, and at most one attribute has
such a name. -/
theorem loop_field {β γ : Type} {step : β → Attr → Res β} (p : Str → Prop) (get : β → γ) (val : Attr → Res γ)
    (h1 : ∀ b a b', step b a = .ok b' → p a.name → val a = .ok (get b'))
    (h2 : ∀ b a b', step b a = .ok b' → ¬ p a.name → get b' = get b) :
    ∀ (attrs : List Attr), attrs.Pairwise (fun a a' => ¬ (p a.name ∧ p a'.name)) → ∀ b b', Res.loop step b attrs = .ok b' →
      (∃ a ∈ attrs, p a.name ∧ val a = .ok (get b')) ∨ ((∀ a ∈ attrs, ¬ p a.name) ∧ get b' = get b) := by
  intro attrs
  induction attrs with
  | nil =>
    intro _ b b' h
    simp only [Res.loop, Res.ok.injEq] at h
    exact .inr ⟨by simp, by rw [h]⟩
  | cons a as ih =>
    intro hp b b' h
    rw [List.pairwise_cons] at hp
    rw [Res.loop] at h
    cases hs : step b a with
    | ok b1 =>
      rw [hs] at h
      simp only at h
      rcases ih hp.2 b1 b' h with ⟨x, hx, hx1, hx2⟩ | ⟨g1, g2⟩
      · exact .inl ⟨x, List.mem_cons_of_mem _ hx, hx1, hx2⟩
      · by_cases hpa : p a.name
        · exact .inl ⟨a, List.mem_cons_self, hpa, by rw [g2]; exact h1 b a b1 hs hpa⟩
        · right
          refine ⟨fun x hx => ?_, g2.trans (h2 b a b1 hs hpa)⟩
          rcases List.mem_cons.1 hx with rfl | hx
          · exact hpa
          · exact g1 x hx
    | err e => rw [hs] at h; simp at h
    | panic e => rw [hs] at h; simp at h
    | diverge => rw [hs] at h; simp at h

/-- The loop succeeds when every step does. -/
theorem loop_total {β : Type} {step : β → Attr → Res β} : ∀ (attrs : List Attr),
    (∀ a ∈ attrs, ∀ b, ∃ b', step b a = .ok b') → ∀ b, ∃ b', Res.loop step b attrs = .ok b' := by
  intro attrs
  induction attrs with
  | nil => intro _ b; exact ⟨b, rfl⟩
  | cons a as ih =>
    intro h b
    obtain ⟨b1, hb⟩ := h a List.mem_cons_self b
    obtain ⟨b2, hb2⟩ := ih (fun x hx => h x (List.mem_cons_of_mem _ hx)) b1
    exact ⟨b2, by rw [Res.loop, hb]; exact hb2⟩

/-- In a successful loop every step succeeded from some state. -/
theorem loop_steps {β : Type} {step : β → Attr → Res β} : ∀ (attrs : List Attr) (b b' : β), Res.loop step b attrs = .ok b' →
    ∀ a ∈ attrs, ∃ c c', step c a = .ok c' := by
  intro attrs
  induction attrs with
  | nil => intro _ _ _ a ha; simp at ha
  | cons x as ih =>
    intro b b' h a ha
    rw [Res.loop] at h
    cases hs : step b x with
    | ok b1 =>
      rw [hs] at h
      rcases List.mem_cons.1 ha with rfl | ha
      · exact ⟨b, b1, hs⟩
      · exact ih b1 b' h a ha
    | err e => rw [hs] at h; simp at h
    | panic e => rw [hs] at h; simp at h
    | diverge => rw [hs] at h; simp at h

theorem distinct_pairwise {attrs : List Attr} (h : Distinct attrs) (n : Str) :
    attrs.Pairwise (fun a a' => ¬ (a.name = n ∧ a'.name = n)) := by
  unfold Distinct at h
  rw [List.Nodup, List.pairwise_map] at h
  exact h.imp fun hab ⟨h1, h2⟩ => hab (h1.trans h2.symm)

theorem distinct_unique {attrs : List Attr} (h : Distinct attrs) {a a' : Attr} (ha : a ∈ attrs) (ha' : a' ∈ attrs)
    (hn : a.name = a'.name) : a = a' := by
  induction attrs with
  | nil => simp at ha
  | cons x xs ih =>
    rw [Distinct, List.map_cons, List.nodup_cons] at h
    rcases List.mem_cons.1 ha with h1 | h1 <;> rcases List.mem_cons.1 ha' with h2 | h2
    · rw [h1, h2]
    · subst h1
      exact absurd (List.mem_map_of_mem (f := Attr.name) h2) (by rw [← hn]; exact h.1)
    · subst h2
      exact absurd (List.mem_map_of_mem (f := Attr.name) h1) (by rw [hn]; exact h.1)
    · exact ih h.2 h1 h2

/-- With a length known, every attribute of that name can be read. -/
theorem len_resolves {vb : Bounds F} {attrs : List Attr} (hd : Distinct attrs) {n : String} {r : PercRef} {x : F}
    (h : Len vb attrs n r x) {a : Attr} (ha : a ∈ attrs) (hn : a.name = n.toList) : resolveUnit vb a.value r = .ok x := by
  rcases h with ⟨v, h1, h2⟩ | ⟨h1, -⟩
  · have := distinct_unique hd ha h1 hn
    rw [this]; exact h2
  · exact absurd (by rw [Given, ← hn]; exact ha) (h1 a.value)

/-- The value of a variable that is set by one attribute. -/
theorem len_of_loop {vb : Bounds F} {attrs : List Attr} {n : String} {r : PercRef} {x y : F}
    (h : Len vb attrs n r x)
    (h' : (∃ a ∈ attrs, a.name = n.toList ∧ resolveUnit vb a.value r = .ok y) ∨ ((∀ a ∈ attrs, ¬ a.name = n.toList) ∧ y = num 0))
    (hd : Distinct attrs) : y = x := by
  rcases h' with ⟨a, ha, hn, hv⟩ | ⟨h1, h2⟩
  · have := len_resolves hd h ha hn
    rw [hv] at this
    exact Res.ok.inj this
  · rcases h with ⟨v, g1, -⟩ | ⟨-, g2⟩
    · exact absurd rfl (h1 _ g1)
    · rw [h2, g2]

end GoSvg
