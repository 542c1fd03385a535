import Verif.Lemmas.Spelling

/-! Units, fields, selectors. -/

set_option linter.unusedSectionVars false
set_option linter.unusedSimpArgs false

namespace GoSvg

variable {F : Type} [GoFloat F] [GoEnv]

open Spec

/-! ### Units -/

theorem findUnitGo_find {s : Str} {u : Unite} {suf : Str} (hs : suf <:+ s) : ∀ us : List (Unite × Str),
    (u, suf) ∈ us → (∀ v ∈ us, v.2 <:+ s → v = (u, suf)) → findUnitGo s us = (u, trimSpace (trimSuffix s suf)) := by
  intro us
  induction us with
  | nil => intro h; simp at h
  | cons v us ih =>
    intro hm hu
    obtain ⟨v, sv⟩ := v
    by_cases hv : sv <:+ s
    · have := hu (v, sv) List.mem_cons_self hv
      simp only [Prod.mk.injEq] at this
      obtain ⟨rfl, rfl⟩ := this
      simp [findUnitGo, hasSuffix_iff.2 hv]
    · have hv' : hasSuffix s sv = false := by
        apply Bool.eq_false_iff.2; intro h; exact hv (hasSuffix_iff.1 h)
      simp only [findUnitGo, hv', Bool.false_eq_true, if_false]
      apply ih
      · simp only [List.mem_cons, Prod.mk.injEq] at hm
        rcases hm with ⟨_, rfl⟩ | hm
        · exact absurd hs hv
        · exact hm
      · exact fun w hw => hu w (List.mem_cons_of_mem _ hw)

theorem units_no_overlap : ∀ u ∈ absoluteUnits, ∀ v ∈ absoluteUnits, u.2 <:+ v.2 → u = v := by decide

theorem units_unique {s : Str} {u : Unite × Str} (hu : u ∈ absoluteUnits) (hs : u.2 <:+ s) :
    ∀ v ∈ absoluteUnits, v.2 <:+ s → v = u := by
  intro v hv hvs
  rcases List.suffix_or_suffix_of_suffix hs hvs with h | h
  · exact (units_no_overlap u hu v hv h).symm
  · exact units_no_overlap v hv u hu h

theorem units_last : ∀ u ∈ absoluteUnits, ∃ d, u.2.getLast? = some d ∧ isSpace d = false := by
  intro u hu
  simp only [absoluteUnits, List.mem_cons, List.not_mem_nil, or_false] at hu
  rcases hu with rfl | rfl | rfl | rfl | rfl | rfl | rfl | rfl
  · exact ⟨'x', by decide⟩
  · exact ⟨'m', by decide⟩
  · exact ⟨'m', by decide⟩
  · exact ⟨'t', by decide⟩
  · exact ⟨'n', by decide⟩
  · exact ⟨'Q', by decide⟩
  · exact ⟨'c', by decide⟩
  · exact ⟨'%', by decide⟩

/-- A number with one of the units, and white space around both. -/
theorem findUnit_unit {u : Unite} {suf t w w' w'' : Str} (hu : (u, suf) ∈ absoluteUnits) (ht : Trimmed t) (hne : t ≠ [])
    (hw : Blank w) (hw' : Blank w') (hw'' : Blank w'') :
    findUnit (w ++ (t ++ w' ++ suf) ++ w'') = (u, t) := by
  unfold findUnit
  obtain ⟨d, hd, hd'⟩ := units_last _ hu
  have hsuf : suf ≠ [] := by rintro rfl; simp at hd
  have htr : Trimmed (t ++ w' ++ suf) := by
    constructor
    · intro c hc
      cases t with
      | nil => exact absurd rfl hne
      | cons x xs => exact ht.1 c (by simpa using hc)
    · intro c hc
      rw [getLast?_append_ne _ hsuf] at hc
      rw [hc] at hd; simp at hd; subst hd; exact hd'
  rw [trimSpace_pad hw hw'' htr]
  have hs : suf <:+ t ++ w' ++ suf := List.suffix_append _ _
  rw [findUnitGo_find hs _ hu (units_unique hu hs), trimSuffix_append]
  have := trimSpace_pad (w := []) (by simp) hw' ht
  rw [List.nil_append] at this
  rw [this]

theorem findUnit_bare {t w w'' : Str} (ht : ∀ c ∈ t, NumChar c) (hw : Blank w) (hw'' : Blank w'') :
    findUnit (w ++ t ++ w'') = (.px, t) := by
  unfold findUnit
  rw [trimSpace_pad hw hw'' (trimmed_of_all fun c hc => isSpace_numChar (ht c hc))]
  exact findUnitGo_plain ht _ absoluteUnits_last

/-- What `findUnit` cuts the string into. -/
theorem findUnit_spec (s : Str) : ∃ w w' w'' suf, s = w ++ ((findUnit s).2 ++ w' ++ suf) ++ w'' ∧ Blank w ∧ Blank w' ∧
    Blank w'' ∧ (((findUnit s).1, suf) ∈ absoluteUnits ∨ ((findUnit s).1 = .px ∧ suf = [])) := by
  obtain ⟨w, w'', hs, hw, hw'', _⟩ := trimSpace_spec s
  have key : ∀ us : List (Unite × Str), ∃ v w' suf, trimSpace s = v ++ (findUnitGo (trimSpace s) us).2 ++ w' ++ suf ∧ Blank v ∧ Blank w' ∧
      (((findUnitGo (trimSpace s) us).1, suf) ∈ us ∨ ((findUnitGo (trimSpace s) us).1 = .px ∧ suf = [])) := by
    intro us
    induction us with
    | nil => exact ⟨[], [], [], by simp [findUnitGo], by simp [Blank], by simp [Blank], Or.inr ⟨rfl, rfl⟩⟩
    | cons u us ih =>
      obtain ⟨u, suf⟩ := u
      by_cases hh : hasSuffix (trimSpace s) suf = true
      · obtain ⟨t, ht⟩ := hasSuffix_iff.1 hh
        obtain ⟨a, b, h1, h2, h3, _⟩ := trimSpace_spec t
        refine ⟨a, b, suf, ?_, h2, h3, Or.inl ?_⟩
        · simp only [findUnitGo, hh, if_true]
          rw [← ht, trimSuffix_append, ← h1]
        · simp [findUnitGo, hh]
      · obtain ⟨v, w', suf', h1, h2, h3, h4⟩ := ih
        refine ⟨v, w', suf', ?_, h2, h3, ?_⟩
        · simpa [findUnitGo, hh] using h1
        · simp only [findUnitGo, hh]
          rcases h4 with h4 | h4
          · exact Or.inl (List.mem_cons_of_mem _ h4)
          · exact Or.inr h4
  obtain ⟨v, w', suf, h1, h2, h3, h4⟩ := key absoluteUnits
  refine ⟨w ++ v, w', w'', suf, ?_, ?_, h3, hw'', h4⟩
  · have : findUnit s = findUnitGo (trimSpace s) absoluteUnits := rfl
    rw [this]
    rw [List.append_assoc w v, ← List.append_assoc v, ← List.append_assoc v, ← h1]
    exact hs
  · intro c hc
    simp only [List.mem_append] at hc
    rcases hc with hc | hc
    · exact hw c hc
    · exact h2 c hc

/-! ### Fields -/

theorem fieldsGo_item {p : Char → Bool} {s : Str} (h : ∀ c ∈ s, p c = false) (rest : Str) : ∀ cur,
    fieldsGo p cur (s ++ rest) = fieldsGo p (cur ++ s) rest := by
  induction s with
  | nil => intro cur; simp
  | cons c cs ih =>
    intro cur
    rw [List.cons_append, fieldsGo, h c List.mem_cons_self]
    simp only [Bool.false_eq_true, if_false]
    rw [ih fun d hd => h d (List.mem_cons_of_mem _ hd)]
    simp

theorem fieldsGo_seps {p : Char → Bool} {s : Str} (h : ∀ c ∈ s, p c = true) (rest : Str) :
    fieldsGo p [] (s ++ rest) = fieldsGo p [] rest := by
  induction s with
  | nil => simp
  | cons c cs ih =>
    rw [List.cons_append, fieldsGo, h c List.mem_cons_self]
    simp only [if_true]
    exact ih fun d hd => h d (List.mem_cons_of_mem _ hd)

theorem fieldsGo_flush {p : Char → Bool} {s : Str} (h : ∀ c ∈ s, p c = true) (hne : s ≠ []) {cur : Str} (hc : cur ≠ []) (rest : Str) :
    fieldsGo p cur (s ++ rest) = cur :: fieldsGo p [] rest := by
  cases s with
  | nil => exact absurd rfl hne
  | cons c cs =>
    rw [List.cons_append, fieldsGo, h c List.mem_cons_self]
    simp only [if_true, hc, if_false]
    rw [fieldsGo_seps fun d hd => h d (List.mem_cons_of_mem _ hd)]

theorem splitOnCommaOrSpace_text (l : CommaList) (h : l.WF) : splitOnCommaOrSpace l.text = l.items.map (·.2) := by
  obtain ⟨items, last⟩ := l
  obtain ⟨h1, h2, h3⟩ := h
  simp only at h1 h2 h3
  have p1 : ∀ s : Str, CommaOrSpace s → ∀ c ∈ s, (fun r => decide (r = ',') || decide (r = ' ') : Char → Bool) c = true := by
    intro s hs c hc; rcases hs c hc with h | h <;> simp [h]
  have p2 : ∀ s : Str, (∀ c ∈ s, c ≠ ',' ∧ c ≠ ' ') → ∀ c ∈ s, (fun r => decide (r = ',') || decide (r = ' ') : Char → Bool) c = false := by
    intro s hs c hc; have := hs c hc; simp [this.1, this.2]
  have key : ∀ (items : List (Str × Str)) (cur : Str), cur ≠ [] →
      (∀ i ∈ items, CommaOrSpace i.1 ∧ i.2 ≠ [] ∧ ∀ c ∈ i.2, c ≠ ',' ∧ c ≠ ' ') → (∀ i ∈ items, i.1 ≠ []) →
      fieldsGo (fun r => decide (r = ',') || decide (r = ' ')) cur (items.flatMap (fun i => i.1 ++ i.2) ++ last)
        = cur :: items.map (·.2) := by
    intro items
    induction items with
    | nil =>
      intro cur hc _ _
      simp only [List.flatMap_nil, List.nil_append, List.map_nil]
      by_cases hl : last = []
      · simp [hl, fieldsGo, hc]
      · have := fieldsGo_flush (p1 last h1) hl hc []
        rw [List.append_nil] at this
        rw [this]; simp [fieldsGo]
    | cons i items ih =>
      intro cur hc hi hs
      obtain ⟨a, b, c⟩ := hi i List.mem_cons_self
      rw [List.flatMap_cons, List.append_assoc, List.append_assoc,
        fieldsGo_flush (p1 _ a) (hs i List.mem_cons_self) hc, fieldsGo_item (p2 _ c), List.nil_append,
        ih i.2 b (fun j hj => hi j (List.mem_cons_of_mem _ hj)) (fun j hj => hs j (List.mem_cons_of_mem _ hj))]
      rfl
  unfold splitOnCommaOrSpace fieldsFunc CommaList.text
  cases items with
  | nil =>
    simp only [List.flatMap_nil, List.nil_append, List.map_nil]
    have := fieldsGo_seps (p1 last h1) []
    rw [List.append_nil] at this
    rw [this]; simp [fieldsGo]
  | cons i items =>
    obtain ⟨a, b, c⟩ := h2 i List.mem_cons_self
    simp only
    rw [List.flatMap_cons, List.append_assoc, List.append_assoc, fieldsGo_seps (p1 _ a), fieldsGo_item (p2 _ c),
      List.nil_append, key items i.2 b (fun j hj => h2 j (List.mem_cons_of_mem _ hj)) (fun j hj => h3 j hj)]
    rfl

theorem trimSpace_idem (s : Str) : trimSpace (trimSpace s) = trimSpace s := trimSpace_of_trimmed (trimmed_trimSpace s)

theorem parseUnit_trim (s : Str) : (parseUnit (trimSpace s) : Res (F × Bool)) = parseUnit s := by
  unfold parseUnit findUnit
  rw [trimSpace_idem]

theorem resolveUnit_trim (vb : Bounds F) (s : Str) (r : PercRef) : resolveUnit vb (trimSpace s) r = resolveUnit vb s r := by
  unfold resolveUnit
  rw [parseUnit_trim]

/-! ### Finding a character -/

theorem idxOf?_append {s t : Str} {c : Char} (h : c ∉ s) : (s ++ c :: t).idxOf? c = some s.length := by
  induction s with
  | nil => simp [List.idxOf?_cons]
  | cons d ds ih =>
    simp only [List.mem_cons, not_or] at h
    rw [List.cons_append, List.idxOf?_cons]
    have : (d == c) = false := by simpa using fun e => h.1 e.symm
    simp [this, ih h.2]

theorem idxOf?_none {s : Str} {c : Char} : s.idxOf? c = none ↔ c ∉ s := by
  simp [List.idxOf?_eq_none_iff]

theorem exists_first {s : Str} {c : Char} (h : c ∈ s) : ∃ a b, s = a ++ c :: b ∧ c ∉ a := by
  induction s with
  | nil => simp at h
  | cons d ds ih =>
    by_cases hd : d = c
    · exact ⟨[], ds, by simp [hd], by simp⟩
    · have : c ∈ ds := by
        simp only [List.mem_cons] at h
        rcases h with h | h
        · exact absurd h.symm hd
        · exact h
      obtain ⟨a, b, h1, h2⟩ := ih this
      refine ⟨d :: a, b, by simp [h1], ?_⟩
      simp only [List.mem_cons, not_or]
      exact ⟨fun e => hd e.symm, h2⟩

end GoSvg
