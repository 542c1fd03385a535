import Verif.Lemmas.Declared
import Verif.Lemmas.Docs

/-! Deciding the hypotheses about documents, for the examples. -/

namespace GoSvg.Spec

open GoSvg

variable [GoEnv]

/-- A start tag named `use`. -/
def isUse : Token → Bool
  | .start n _ => decide (n = "use".toList)
  | _ => false

instance (ts : List Token) : Decidable (NoUse ts) :=
  decidable_of_iff (∀ t ∈ ts, isUse t = false) (by
    constructor
    · intro h a ha
      exact absurd (h _ ha) (by simp [isUse])
    · intro h t ht
      cases t with
      | start n a =>
        refine decide_eq_false fun e => ?_
        subst e
        exact h a ht
      | _ => rfl)

instance (v : Str) : Decidable (ColorShape v) :=
  decidable_of_iff (v ≠ [] ∧ (v.head? = some '#' → 3 ≤ v.tail.length) ∧
      (v.take 4 = "rgb(".toList → [] ∉ split ',' (trimSuffix (v.drop 4) ")".toList))) (by
    constructor
    · rintro ⟨h1, h2, h3⟩
      refine ⟨h1, ?_, ?_⟩
      · rintro t rfl; exact h2 rfl
      · rintro t rfl; exact h3 rfl
    · rintro ⟨h1, h2, h3⟩
      refine ⟨h1, ?_, ?_⟩
      · cases v with
        | nil => exact absurd rfl h1
        | cons a t =>
          intro h
          have : a = '#' := Option.some.inj h
          exact h2 t (by rw [this])
      · intro h
        exact h3 _ (by rw [← h, List.take_append_drop]))

/-- The colours of a start tag have the shape of colours. -/
def tagShaped (t : Token) : Bool :=
  match t with
  | .start _ attrs => decide ((∀ v ∈ valuesOf "fill" attrs ++ valuesOf "stroke" attrs, ColorShape v) ∧ ∀ v ∈ stopColors attrs, ColorShape v)
  | _ => true

instance (ts : List Token) : Decidable (ColorsShaped ts) :=
  decidable_of_iff (∀ t ∈ ts, tagShaped t = true) (by
    constructor
    · intro h n a ht
      exact of_decide_eq_true (h _ ht)
    · intro h t ht
      cases t with
      | start n a => exact decide_eq_true (h n a ht)
      | _ => rfl)

end GoSvg.Spec
