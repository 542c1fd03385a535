import Verif.Model.Parse

/-! Facts about the string functions of the model. -/

namespace GoSvg

theorem hasSuffix_iff {s p : Str} : hasSuffix s p = true ↔ p <:+ s := by simp [hasSuffix]

theorem hasPrefix_iff {s p : Str} : hasPrefix s p = true ↔ p <+: s := by simp [hasPrefix]

theorem trimSuffix_append (s p : Str) : trimSuffix (s ++ p) p = s := by
  have : hasSuffix (s ++ p) p = true := hasSuffix_iff.2 (List.suffix_append s p)
  simp [trimSuffix, this]

theorem trimPrefix_append (p s : Str) : trimPrefix (p ++ s) p = s := by
  have : hasPrefix (p ++ s) p = true := hasPrefix_iff.2 (List.prefix_append p s)
  simp [trimPrefix, this]

/-- `s` neither starts nor ends with white space. -/
def Trimmed (s : Str) : Prop := (∀ c, s.head? = some c → isSpace c = false) ∧ (∀ c, s.getLast? = some c → isSpace c = false)

theorem dropWhile_of_head {p : Char → Bool} {s : Str} (h : ∀ c, s.head? = some c → p c = false) : s.dropWhile p = s := by
  cases s with
  | nil => rfl
  | cons c cs => simp [List.dropWhile, h c rfl]

theorem dropWhile_append_all {p : Char → Bool} {w s : Str} (h : ∀ c ∈ w, p c = true) : (w ++ s).dropWhile p = s.dropWhile p := by
  induction w with
  | nil => rfl
  | cons c cs ih =>
    rw [List.cons_append, List.dropWhile_cons_of_pos (h c List.mem_cons_self)]
    exact ih fun d hd => h d (List.mem_cons_of_mem _ hd)

theorem dropWhile_all {p : Char → Bool} {w : Str} (h : ∀ c ∈ w, p c = true) : w.dropWhile p = [] := by
  have := dropWhile_append_all (s := []) h
  simpa using this

/-- White space around a trimmed string is what `trimSpace` removes. -/
theorem trimSpace_pad {w s w' : Str} (hw : ∀ c ∈ w, isSpace c = true) (hw' : ∀ c ∈ w', isSpace c = true) (hs : Trimmed s) :
    trimSpace (w ++ s ++ w') = s := by
  unfold trimSpace
  rw [List.append_assoc, dropWhile_append_all hw]
  cases s with
  | nil =>
    rw [List.nil_append, dropWhile_all hw']; rfl
  | cons c cs =>
    rw [dropWhile_of_head (s := c :: cs ++ w')]
    · rw [List.reverse_append, dropWhile_append_all (by simpa using hw'), dropWhile_of_head]
      · simp
      · intro d hd; rw [List.head?_reverse] at hd; exact hs.2 d hd
    · intro d hd; exact hs.1 d (by simpa using hd)

theorem trimSpace_of_trimmed {s : Str} (hs : Trimmed s) : trimSpace s = s := by
  have := trimSpace_pad (w := []) (w' := []) (by simp) (by simp) hs
  simpa using this

theorem head?_dropWhile {p : Char → Bool} (s : Str) : ∀ c, (s.dropWhile p).head? = some c → p c = false := by
  induction s with
  | nil => simp
  | cons d ds ih =>
    intro c h
    by_cases hd : p d = true
    · rw [List.dropWhile_cons_of_pos hd] at h; exact ih c h
    · rw [List.dropWhile_cons_of_neg hd] at h
      simp at h; subst h; simpa using hd

theorem dropWhile_suffix' {p : Char → Bool} (s : Str) : ∃ w, s = w ++ s.dropWhile p ∧ ∀ c ∈ w, p c = true := by
  induction s with
  | nil => exact ⟨[], by simp⟩
  | cons d ds ih =>
    by_cases hd : p d = true
    · obtain ⟨w, h1, h2⟩ := ih
      refine ⟨d :: w, ?_, ?_⟩
      · rw [List.dropWhile_cons_of_pos hd, List.cons_append, ← h1]
      · simpa using ⟨hd, h2⟩
    · exact ⟨[], by rw [List.dropWhile_cons_of_neg hd]; rfl, by simp⟩

/-- Every string is white space, a trimmed string, white space. -/
theorem trimSpace_spec (s : Str) : ∃ w w', s = w ++ trimSpace s ++ w' ∧ (∀ c ∈ w, isSpace c = true) ∧
    (∀ c ∈ w', isSpace c = true) ∧ Trimmed (trimSpace s) := by
  obtain ⟨w, h1, h2⟩ := dropWhile_suffix' (p := isSpace) s
  obtain ⟨v, h3, h4⟩ := dropWhile_suffix' (p := isSpace) (s.dropWhile isSpace).reverse
  have h5 : s.dropWhile isSpace = trimSpace s ++ v.reverse := by
    have := congrArg List.reverse h3
    simpa [trimSpace] using this
  refine ⟨w, v.reverse, ?_, h2, by simpa using h4, ?_, ?_⟩
  · rw [List.append_assoc, ← h5]; exact h1
  · intro c hc
    apply head?_dropWhile s c
    rw [h5]
    cases h : trimSpace s with
    | nil => rw [h] at hc; simp at hc
    | cons a as => rw [h] at hc; simpa using hc
  · intro c hc
    have : trimSpace s = ((s.dropWhile isSpace).reverse.dropWhile isSpace).reverse := rfl
    rw [this, List.getLast?_reverse] at hc
    exact head?_dropWhile _ c hc

theorem trimmed_trimSpace (s : Str) : Trimmed (trimSpace s) := by
  obtain ⟨_, _, _, _, _, h⟩ := trimSpace_spec s; exact h

/-! ### split -/

theorem split_ne_nil (sep : Char) (s : Str) : split sep s ≠ [] := by
  induction s with
  | nil => simp [split]
  | cons c cs ih =>
    unfold split
    split
    · simp
    · split <;> simp

theorem split_no_sep {sep : Char} {s : Str} (h : sep ∉ s) : split sep s = [s] := by
  induction s with
  | nil => rfl
  | cons c cs ih =>
    simp only [List.mem_cons, not_or] at h
    have hc : ¬ c = sep := fun e => h.1 e.symm
    simp [split, hc, ih h.2]

theorem split_append_sep {sep : Char} {s t : Str} (h : sep ∉ s) : split sep (s ++ sep :: t) = s :: split sep t := by
  induction s with
  | nil => simp [split]
  | cons c cs ih =>
    simp only [List.mem_cons, not_or] at h
    have hc : ¬ c = sep := fun e => h.1 e.symm
    rw [List.cons_append]
    simp [split, hc, ih h.2]

/-- The pieces contain no separator. -/
theorem split_pieces (sep : Char) (s : Str) : ∀ p ∈ split sep s, sep ∉ p := by
  induction s with
  | nil => simp [split]
  | cons c cs ih =>
    unfold split
    split
    · simpa using ih
    · rename_i hc
      cases h : split sep cs with
      | nil => exact absurd h (split_ne_nil _ _)
      | cons p ps =>
        rw [h] at ih
        simp only [List.mem_cons, forall_eq_or_imp] at ih ⊢
        refine ⟨?_, ih.2⟩
        simp only [not_or]
        exact ⟨fun e => hc e.symm, ih.1⟩

/-- Joining the pieces gives the string back. -/
theorem split_join (sep : Char) (s : Str) : [sep].intercalate (split sep s) = s := by
  induction s with
  | nil => rfl
  | cons c cs ih =>
    unfold split
    split
    · rename_i hc
      subst hc
      cases h : split c cs with
      | nil => exact absurd h (split_ne_nil _ _)
      | cons p ps =>
        rw [h] at ih
        rw [List.intercalate_cons_cons, ih]; rfl
    · cases h : split sep cs with
      | nil => exact absurd h (split_ne_nil _ _)
      | cons p ps =>
        rw [h] at ih
        rw [← ih]
        cases ps with
        | nil => simp
        | cons q qs => simp [List.intercalate_cons_cons]

/-! ### cut -/

theorem cut_no_sep {sep : Char} {s : Str} (h : sep ∉ s) : cut sep s = none := by
  induction s with
  | nil => rfl
  | cons c cs ih =>
    simp only [List.mem_cons, not_or] at h
    have hc : ¬ c = sep := fun e => h.1 e.symm
    simp [cut, hc, ih h.2]

theorem cut_append {sep : Char} {s t : Str} (h : sep ∉ s) : cut sep (s ++ sep :: t) = some (s, t) := by
  induction s with
  | nil => simp [cut]
  | cons c cs ih =>
    simp only [List.mem_cons, not_or] at h
    have hc : ¬ c = sep := fun e => h.1 e.symm
    rw [List.cons_append]
    simp [cut, hc, ih h.2]

end GoSvg
