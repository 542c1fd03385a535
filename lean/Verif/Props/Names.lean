import Verif.Model.Names
import Mathlib.Data.List.Nodup

/-! C72: the names of the line modes. -/

namespace GoSvg.Spec

/-- The modes in the order of their numbers, by name. -/
def joinNames : List String := ["Arc", "Round", "Bevel", "Miter", "MiterClip", "ArcClip"]
def capNames : List String := ["NilCap", "ButtCap", "SquareCap", "RoundCap", "CubicCap", "QuadraticCap"]
def gapNames : List String := ["NilGap", "FlatGap", "RoundGap", "CubicGap", "QuadraticGap"]

end GoSvg.Spec

namespace GoSvg

open Spec

/-- C72: every value of the types prints as the name of its constant, and a value that is no constant prints as unknown. -/
theorem C72_names (s : UInt8) : joinString s = joinNames.getD s.toNat "<unknown JoinMode>" ∧
    capString s = capNames.getD s.toNat "<unknown CapMode>" ∧ gapString s = gapNames.getD s.toNat "<unknown GapMode>" := by
  obtain ⟨⟨n, hn⟩⟩ := s
  revert n
  decide +kernel

theorem getD_inj {l : List String} {d : String} (hl : l.Nodup) (hd : d ∉ l) {i j : Nat} : l.getD i d = l.getD j d ↔ i = j ∨ (l.length ≤ i ∧ l.length ≤ j) := by
  rw [List.getD_eq_getElem?_getD, List.getD_eq_getElem?_getD]
  rcases Nat.lt_or_ge i l.length with hi | hi <;> rcases Nat.lt_or_ge j l.length with hj | hj
  · rw [List.getElem?_eq_getElem hi, List.getElem?_eq_getElem hj, Option.getD_some, Option.getD_some, hl.getElem_inj_iff]
    omega
  · rw [List.getElem?_eq_getElem hi, List.getElem?_eq_none hj, Option.getD_some, Option.getD_none]
    constructor
    · intro h; exact absurd (h ▸ List.getElem_mem hi) hd
    · intro h; omega
  · rw [List.getElem?_eq_none hi, List.getElem?_eq_getElem hj, Option.getD_some, Option.getD_none]
    constructor
    · intro h; exact absurd (h ▸ List.getElem_mem hj) hd
    · intro h; omega
  · rw [List.getElem?_eq_none hi, List.getElem?_eq_none hj]
    simp [hi, hj]

/-- C72: two values have the same name only if they are equal or neither is a constant. -/
theorem C72_distinct (a b : UInt8) : (joinString a = joinString b ↔ a = b ∨ (6 ≤ a.toNat ∧ 6 ≤ b.toNat)) ∧
    (capString a = capString b ↔ a = b ∨ (6 ≤ a.toNat ∧ 6 ≤ b.toNat)) ∧
    (gapString a = gapString b ↔ a = b ∨ (5 ≤ a.toNat ∧ 5 ≤ b.toNat)) := by
  obtain ⟨a1, a2, a3⟩ := C72_names a
  obtain ⟨b1, b2, b3⟩ := C72_names b
  rw [a1, a2, a3, b1, b2, b3, getD_inj (by decide) (by decide), getD_inj (by decide) (by decide), getD_inj (by decide) (by decide),
    UInt8.toNat_inj]
  exact ⟨Iff.rfl, Iff.rfl, Iff.rfl⟩

/-- C72: the modes a style can have print as their constants. -/
theorem C72_modes (j : JoinMode) (c : CapMode) (g : GapMode) : joinString j.code ∈ joinNames ∧ capString c.code ∈ capNames ∧
    gapString g.code ∈ gapNames := by
  refine ⟨?_, ?_, ?_⟩
  · cases j <;> decide
  · cases c <;> decide
  · cases g <;> decide

example : joinString 4 = "MiterClip" ∧ joinString 200 = "<unknown JoinMode>" ∧ capString CapMode.butt.code = "ButtCap" := by decide

end GoSvg
