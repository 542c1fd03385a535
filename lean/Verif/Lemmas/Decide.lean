import Verif.Spec.SvgPath

/-! Deciding the well-formedness of spellings, for the examples. -/

namespace GoSvg.Spec

instance (s : Str) : Decidable (Digits s) := by unfold Digits; infer_instance
instance (s : Str) : Decidable (Blank s) := by unfold Blank; infer_instance

def optAll {α : Type} (p : α → Bool) : Option α → Bool
  | none => true
  | some a => p a

theorem optAll_iff {α : Type} {p : α → Bool} {o : Option α} : optAll p o = true ↔ ∀ a, o = some a → p a = true := by
  cases o <;> simp [optAll]

instance (n : Spelling) : Decidable n.WF :=
  decidable_of_iff (decide (Digits n.ip) && optAll (fun f => decide (Digits f)) n.frac &&
      (decide (n.ip ≠ []) || !optAll (fun f => decide (f = [])) n.frac) &&
      optAll (fun e => decide (Digits e.2) && decide (e.2 ≠ [])) n.exp) (by
    simp only [Bool.and_eq_true, Bool.or_eq_true, decide_eq_true_eq, optAll_iff]
    constructor
    · rintro ⟨⟨⟨h1, h2⟩, h3⟩, h4⟩
      refine ⟨h1, h2, ?_, fun s d h => h4 _ h⟩
      rcases h3 with h3 | h3
      · exact Or.inl h3
      · right
        cases hf : n.frac with
        | none => rw [hf] at h3; simp [optAll] at h3
        | some f => rw [hf] at h3; exact ⟨f, rfl, by simpa [optAll] using h3⟩
    · rintro ⟨h1, h2, h3, h4⟩
      refine ⟨⟨⟨h1, h2⟩, ?_⟩, fun e h => h4 e.1 e.2 h⟩
      rcases h3 with h3 | ⟨f, h3, h5⟩
      · exact Or.inl h3
      · right; rw [h3]; simpa [optAll] using h5)

instance (g : Group) : Decidable g.WF :=
  decidable_of_iff (g.first.WF ∧ (∀ n ∈ g.more, n.WF ∧ n.neg = false ∧ n.ip = [] ∧ n.frac ≠ none) ∧
    (g.more ≠ [] → g.first.frac ≠ none)) ⟨fun h => ⟨h.1, h.2.1, h.2.2⟩, fun h => ⟨h.1, h.2, h.3⟩⟩

instance [GoEnv] (c : Char) : Decidable (IsSep c) := by unfold IsSep; infer_instance
instance [GoEnv] (c : Char) : Decidable (PathSep c) := by unfold PathSep; infer_instance
instance [GoEnv] (l : GroupList) : Decidable l.WF := by unfold GroupList.WF; infer_instance
instance (n m : Nat) : Decidable (Accepts n m) := by
  unfold Accepts
  exact decidable_of_iff (if n = 0 then m = 0 else m % n = 0 ∧ m ≠ 0) (by
    split
    · rfl
    · rename_i h
      constructor
      · rintro ⟨h1, h2⟩
        obtain ⟨k, hk⟩ := Nat.dvd_of_mod_eq_zero h1
        cases k with
        | zero => simp at hk; exact absurd hk h2
        | succ k => exact ⟨k, hk⟩
      · rintro ⟨k, rfl⟩
        refine ⟨Nat.mul_mod_right _ _, ?_⟩
        have := Nat.pos_of_ne_zero h
        exact Nat.pos_iff_ne_zero.1 (Nat.mul_pos this (by omega)))

/-- A number without sign, fraction or exponent, behind a separator. -/
def int (sep : String) (s : String) : Str × Group := (sep.toList, ⟨⟨false, s.toList, none, none⟩, []⟩)

end GoSvg.Spec
