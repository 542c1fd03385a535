import Verif.Lemmas.Walk
import Verif.Spec.Declared

/-! Declarations and the shape of colours. -/

set_option linter.unusedSectionVars false

namespace GoSvg

open Spec

variable {F : Type} [GoFloat F] [GoEnv]

theorem decls_eq_declared (attrs : List Attr) : decls attrs = declared attrs := by
  unfold decls declared
  induction attrs with
  | nil => rfl
  | cons a as ih =>
    rw [stylePairs, List.flatMap_cons, ← ih]
    split
    · rw [List.filterMap_append]; rfl
    · rw [List.filterMap_cons]
      have e : declOf (a.name ++ ':' :: a.value) = declaration (a.name ++ ':' :: a.value) := rfl
      rw [e]
      cases declaration (a.name ++ ':' :: a.value) <;> rfl

theorem utf8_length (s : Str) : s.length ≤ (utf8 s).length := by
  induction s with
  | nil => simp
  | cons c s ih =>
    have hc : 1 ≤ (utf8Char c).length := by
      unfold utf8Char
      dsimp only
      split
      · simp
      · split
        · simp
        · split <;> simp
    unfold utf8 at ih ⊢
    rw [List.flatMap_cons, List.length_append, List.length_cons]
    omega

theorem parseColorValue_ok {B : Site → Prop} {D : Prop} {v : Str} (h : v ≠ []) : (parseColorValue v).Within B D := by
  unfold parseColorValue
  split
  · rename_i hv; exact absurd (List.getLast?_eq_none_iff.1 hv) h
  · split <;> trivial
  · split <;> trivial

theorem colorShape_within {B : Site → Prop} {D : Prop} {v : Str} (h : ColorShape v) : (parseSVGColor v).Within B D := by
  obtain ⟨h1, h2, h3⟩ := h
  unfold parseSVGColor
  dsimp only
  split
  · trivial
  · split
    · trivial
    · split
      · trivial
      · split
        · rename_i hr
          have hp : hasPrefix v "rgb(".toList = true := by
            by_contra hn
            apply hr
            unfold trimPrefix; rw [if_neg hn]
          obtain ⟨t, ht⟩ := hasPrefix_iff.1 hp
          have e : trimPrefix v "rgb(".toList = t := by rw [← ht]; exact trimPrefix_append _ _
          have h4 := h3 t ht.symm
          rw [e]
          split
          · rename_i hs
            rw [hs] at h4
            simp only [List.mem_cons, List.not_mem_nil, or_false, not_or] at h4
            exact within_bind (parseColorValue_ok (Ne.symm h4.1)) fun _ => within_bind (parseColorValue_ok (Ne.symm h4.2.1)) fun _ =>
              within_bind (parseColorValue_ok (Ne.symm h4.2.2)) fun _ => trivial
          · trivial
        · rcases v with _ | ⟨c0, t⟩
          · exact absurd rfl h1
          · dsimp only
            split
            · rename_i hc; subst hc
              have hl := h2 t rfl
              have h5 : (parseSVGColorNum ('#' :: t)).Within B D := by
                unfold parseSVGColorNum
                have e : trimPrefix ('#' :: t) "#".toList = t := trimPrefix_append "#".toList t
                rw [e]
                dsimp only
                have hu := utf8_length t
                match hb : utf8 t with
                | [] => rw [hb] at hu; simp only [List.length_nil] at hu; omega
                | [_] => rw [hb] at hu; simp only [List.length_cons, List.length_nil] at hu; omega
                | [_, _] => rw [hb] at hu; simp only [List.length_cons, List.length_nil] at hu; omega
                | b0 :: b1 :: b2 :: rest =>
                  have key : ∀ six : List Nat, six.length = 6 → (match (some six : Option (List Nat)) with
                      | some [r1, r0, g1, g0, b1, b0] =>
                        match parseHex2 r1 r0 with
                        | none => Res.err .badHex
                        | some r => match parseHex2 g1 g0 with
                          | none => .err .badHex
                          | some g => match parseHex2 b1 b0 with
                            | none => .err .badHex
                            | some b => .ok (r, g, b)
                      | _ => .panic .color : Res (Nat × Nat × Nat)).Within B D := by
                    intro six h6
                    match six, h6 with
                    | [_, _, _, _, _, _], _ =>
                      dsimp only
                      split
                      · trivial
                      · split
                        · trivial
                        · split <;> trivial
                  by_cases h6 : (b0 :: b1 :: b2 :: rest).length = 6
                  · rw [if_neg (by simpa using h6)]; exact key _ h6
                  · rw [if_pos h6]; exact key [b0, b0, b1, b1, b2, b2] rfl
              split
              · trivial
              · trivial
              · rename_i hr; rw [hr] at h5; exact h5
              · rename_i hr; rw [hr] at h5; exact h5
            · trivial

theorem stylePieces_mem {names : List Str} {a : Attr} : ∀ (ps : List Str), a ∈ stylePieces names ps →
    ∃ p ∈ ps, ∃ k v, cut ':' p = some (k, v) ∧ a = ⟨toLower (trimSpace k), trimSpace v⟩
  | [], h => nomatch h
  | p :: ps, h => by
    rw [stylePieces] at h
    have ih := stylePieces_mem (names := names) (a := a) ps
    cases hc : cut ':' p with
    | none =>
      rw [hc] at h
      obtain ⟨q, hq, h⟩ := ih h
      exact ⟨q, List.mem_cons_of_mem _ hq, h⟩
    | some kv =>
      rw [hc] at h
      dsimp only at h
      split at h
      · rcases List.mem_cons.1 h with rfl | h
        · exact ⟨p, List.mem_cons_self, kv.1, kv.2, hc, rfl⟩
        · obtain ⟨q, hq, h⟩ := ih h
          exact ⟨q, List.mem_cons_of_mem _ hq, h⟩
      · obtain ⟨q, hq, h⟩ := ih h
        exact ⟨q, List.mem_cons_of_mem _ hq, h⟩

theorem stopColors_mem {attrs : List Attr} {names : List Str} {a : Attr} (h : a ∈ appendStyleAttrs attrs names)
    (hn : a.name = "stop-color".toList) : a.value ∈ stopColors attrs := by
  unfold appendStyleAttrs at h
  dsimp only at h
  unfold stopColors
  have base : a ∈ attrs → a.value ∈ (attrs.filter fun a => a.name = "stop-color".toList).map (·.value) := fun h =>
    List.mem_map.2 ⟨a, List.mem_filter.2 ⟨h, decide_eq_true hn⟩, rfl⟩
  cases hf : attrs.find? fun a => a.name = "style".toList with
  | none => rw [hf] at h; exact List.mem_append_left _ (base h)
  | some s =>
    rw [hf] at h
    dsimp only at h
    split at h
    · exact List.mem_append_left _ (base h)
    · rcases List.mem_append.1 h with h | h
      · exact List.mem_append_left _ (base h)
      · refine List.mem_append_right _ ?_
        have hs1 := List.mem_of_find?_eq_some hf
        have hs2 := List.find?_some hf
        obtain ⟨p, hp, k, v, hc, rfl⟩ := stylePieces_mem _ h
        refine List.mem_flatMap.2 ⟨s, List.mem_filter.2 ⟨hs1, hs2⟩, List.mem_filterMap.2 ⟨p, hp, ?_⟩⟩
        rw [hc]
        dsimp only at hn ⊢
        rw [if_pos hn]

theorem tokensOK_shaped {tokens : List Token} (h : ColorsShaped tokens) : TokensOK (fun _ => False) tokens := by
  intro t ht
  cases t with
  | start name attrs =>
    obtain ⟨h1, h2⟩ := h name attrs ht
    refine ⟨fun kv hkv hk => colorShape_within (h1 kv.2 ?_), fun a ha hn => colorShape_within (h2 _ (stopColors_mem ha hn))⟩
    rw [decls_eq_declared] at hkv
    unfold valuesOf
    rcases hk with hk | hk
    · exact List.mem_append_left _ (List.mem_map.2 ⟨kv, List.mem_filter.2 ⟨hkv, decide_eq_true hk⟩, rfl⟩)
    · exact List.mem_append_right _ (List.mem_map.2 ⟨kv, List.mem_filter.2 ⟨hkv, decide_eq_true hk⟩, rfl⟩)
  | stop _ => trivial
  | chars _ => trivial
  | other => trivial

end GoSvg
