import Verif.Lemmas.SpellingReal
import Verif.Lemmas.Units
import Verif.Lemmas.Groups
import Verif.Lemmas.Trunc
import Verif.Model.Env

/-! C01-C05, C59, C61: numbers, units, dash arrays, selectors. -/

set_option linter.unusedSectionVars false

namespace GoSvg

open Spec

variable {F : Type} [GoFloat F] [GoEnv]

/-! ### C01, C02 -/

/-- A number list as a list of groups of one. -/
def single (l : NumberList) : GroupList := ⟨l.items.map fun i => (i.1, ⟨i.2, []⟩), l.last⟩

theorem single_wf {l : NumberList} (h : l.WF) : (single l).WF := by
  refine ⟨h.1, ?_, ?_⟩
  · intro i hi
    simp only [single, List.mem_map] at hi
    obtain ⟨j, hj, rfl⟩ := hi
    exact ⟨⟨(h.2.1 j hj).1, by simp, by simp⟩, (h.2.1 j hj).2⟩
  · intro i hi
    simp only [single, ← List.map_tail, List.mem_map] at hi
    obtain ⟨j, hj, rfl⟩ := hi
    exact h.2.2 j hj

theorem single_text (l : NumberList) : (single l).text = l.text := by
  simp [single, GroupList.text, NumberList.text, List.flatMap_map, Group.text, Group.numbers]

theorem single_numbers (l : NumberList) : (single l).numbers = l.items.map (·.2) := by
  simp [single, GroupList.numbers, List.flatMap_map, Group.numbers]
  induction l.items with
  | nil => rfl
  | cons i is ih => simp [ih]

/-- C01 for every arithmetic: the list read is the list of what the number reader gives for each spelling, and reading
fails exactly when the number reader rejects one of them. -/
theorem C01_number_list (l : NumberList) (h : l.WF) (c : PathCursor F) :
    (∀ ps : List F, readAll (l.items.map fun i => i.2.text) = some ps →
      getPoints l.text c = (.ok (), { c with points := ps.map (· *. num 1) })) ∧
    (readAll (F := F) (l.items.map fun i => i.2.text) = none →
      ∃ qs, getPoints l.text c = (.err .badFloat, { c with points := qs })) := by
  have := groups_read (F := F) (single l) (single_wf h) c
  rw [single_numbers, single_text, List.map_map] at this
  exact this

/-- C01 in exact arithmetic: the numbers read are the numbers written. -/
theorem C01_number_list_exact (l : NumberList) (h : l.WF) (c : PathCursor ℝ) :
    getPoints l.text c = (.ok (), { c with points := l.items.map fun i => (i.2.value : ℝ) }) := by
  have hr := readAll_real (l.items.map (·.2)) (by
    intro n hn; simp only [List.mem_map] at hn; obtain ⟨i, hi, rfl⟩ := hn; exact (h.2.1 i hi).1)
  rw [List.map_map] at hr
  rw [(C01_number_list l h c).1 _ hr]
  simp [List.map_map, Function.comp_def]

/-- C02 in exact arithmetic: run-together numbers are read as the numbers they consist of. -/
theorem C02_run_together_exact (l : GroupList) (h : l.WF) (c : PathCursor ℝ) :
    getPoints l.text c = (.ok (), { c with points := l.numbers.map fun n => (n.value : ℝ) }) := by
  have hr := readAll_real l.numbers (by
    intro n hn
    simp only [GroupList.numbers, List.mem_flatMap] at hn
    obtain ⟨i, hi, hn⟩ := hn
    have hg := (h.2.1 i hi).1
    simp only [Group.numbers, List.mem_cons] at hn
    rcases hn with rfl | hn
    · exact hg.first
    · exact (hg.more n hn).1)
  rw [(groups_read l h c).1 _ hr]
  simp

/-- C02 for every arithmetic, for one run of digits and points: `d0.d1.d2...` is `d0.d1`, `.d2`, ... -/
theorem C02_run_together (neg : Bool) (d0 d1 : Str) (ds : List Str) (h0 : Digits d0) (h1 : Digits d1)
    (h01 : d0 ≠ [] ∨ d1 ≠ []) (hd : ∀ d ∈ ds, Digits d ∧ d ≠ []) (ps : List F) (c : PathCursor F)
    (hps : readAll (((if neg then ['-'] else []) ++ d0 ++ '.' :: d1) :: ds.map ('.' :: ·)) = some ps) :
    getPoints (((if neg then ['-'] else []) ++ d0 ++ '.' :: d1) ++ ds.flatMap ('.' :: ·)) c
      = (.ok (), { c with points := ps.map (· *. num 1) }) := by
  let g : Group := ⟨⟨neg, d0, some d1, none⟩, ds.map fun d => ⟨false, [], some d, none⟩⟩
  have hg : g.WF := by
    refine ⟨⟨h0, ?_, ?_, ?_⟩, ?_, ?_⟩
    · intro f hf; simp [g] at hf; subst hf; exact h1
    · rcases h01 with h | h
      · exact Or.inl h
      · exact Or.inr ⟨d1, rfl, h⟩
    · intro s d hs; simp [g] at hs
    · intro n hn
      simp only [g, List.mem_map] at hn
      obtain ⟨d, hd', rfl⟩ := hn
      have := hd d hd'
      refine ⟨⟨by intro c hc; simp at hc, ?_, Or.inr ⟨d, rfl, this.2⟩, by intro s d hs; simp at hs⟩, rfl, rfl, by simp⟩
      intro f hf; simp at hf; subst hf; exact this.1
    · intro _; simp [g]
  have hl : GroupList.WF ⟨[([], g)], []⟩ := ⟨by simp, by simp [hg], by simp⟩
  have := (groups_read (F := F) ⟨[([], g)], []⟩ hl c).1
  simp only [GroupList.text, GroupList.numbers, List.flatMap_cons, List.flatMap_nil, List.append_nil, List.nil_append] at this
  have ht : g.text = ((if neg then ['-'] else []) ++ d0 ++ '.' :: d1) ++ ds.flatMap ('.' :: ·) := by
    simp [g, Group.text, Group.numbers, Spelling.text, Spelling.body, List.flatMap_map]
  have hn : g.numbers.map Spelling.text = ((if neg then ['-'] else []) ++ d0 ++ '.' :: d1) :: ds.map ('.' :: ·) := by
    simp [g, Group.numbers, Spelling.text, Spelling.body, Function.comp_def]
  rw [ht, hn] at this
  exact this ps hps

/-! The text `-1.5 ,2e-3-4.5.25` is a list of these shapes. -/
example : let l : GroupList := ⟨[([], ⟨⟨true, "1".toList, some "5".toList, none⟩, []⟩),
      (" ,".toList, ⟨⟨false, "2".toList, none, some (true, "3".toList)⟩, []⟩),
      ([], ⟨⟨true, "4".toList, some "5".toList, none⟩, [⟨false, [], some "25".toList, none⟩]⟩)], []⟩
    l.WF ∧ l.text = "-1.5 ,2e-3-4.5.25".toList ∧
      l.numbers.map Spelling.value = [-3/2, 2/1000, -9/2, 1/4] := by
  have sep : ∀ c : Char, (c = ' ' ∨ c = ',') → IsSep c := by
    rintro c (rfl | rfl) <;> exact ⟨by rw [GoEnv.isNumber_ascii _ (by decide)]; decide, by decide⟩
  have dig : ∀ s ∈ ["1".toList, "5".toList, "2".toList, "3".toList, "4".toList, "25".toList, ([] : Str)], Digits s := by
    unfold Digits; decide
  refine ⟨⟨by simp, ?_, ?_⟩, by decide, by decide +kernel⟩
  · simp only [List.mem_cons, List.not_mem_nil, or_false, forall_eq_or_imp, forall_eq]
    refine ⟨⟨⟨⟨dig _ (by decide), ?_, Or.inl (by decide), ?_⟩, by simp, by simp⟩, by simp⟩,
      ⟨⟨⟨dig _ (by decide), ?_, Or.inl (by decide), ?_⟩, by simp, by simp⟩, ?_⟩,
      ⟨⟨⟨dig _ (by decide), ?_, Or.inl (by decide), ?_⟩, ?_, by simp⟩, by simp⟩⟩
    · intro f hf; cases hf; exact dig _ (by decide)
    · intro s d h; cases h
    · intro f hf; cases hf
    · intro s d h; cases h; exact ⟨dig _ (by decide), by decide⟩
    · intro c hc; apply sep; revert c; decide
    · intro f hf; cases hf; exact dig _ (by decide)
    · intro s d h; cases h
    · simp only [List.mem_singleton, forall_eq]
      refine ⟨⟨dig _ (by decide), ?_, Or.inr ⟨_, rfl, by decide⟩, ?_⟩, by simp⟩
      · intro f hf; cases hf; exact dig _ (by decide)
      · intro s d h; cases h
  · simp

/-! ### C03 -/

/-- Every unit of the specification is one of the program, with that factor. -/
theorem unit_factor {u : Str} {f : Rat} (h : (u, f) ∈ Spec.units) :
    (∃ k : Unite, (k, u) ∈ absoluteUnits ∧ k ≠ .perc ∧ (toPx k : F) = num f) ∨ (u = [] ∧ f = 1) := by
  simp only [Spec.units, List.mem_cons, Prod.mk.injEq, List.not_mem_nil, or_false] at h
  rcases h with ⟨rfl, rfl⟩ | ⟨rfl, rfl⟩ | ⟨rfl, rfl⟩ | ⟨rfl, rfl⟩ | ⟨rfl, rfl⟩ | ⟨rfl, rfl⟩ | ⟨rfl, rfl⟩ | ⟨rfl, rfl⟩
  · exact Or.inl ⟨.px, by decide, by decide, rfl⟩
  · exact Or.inl ⟨.cm, by decide, by decide, congrArg num (by decide +kernel)⟩
  · exact Or.inl ⟨.mm, by decide, by decide, congrArg num (by decide +kernel)⟩
  · exact Or.inl ⟨.pt, by decide, by decide, congrArg num (by decide +kernel)⟩
  · exact Or.inl ⟨.in, by decide, by decide, rfl⟩
  · exact Or.inl ⟨.q, by decide, by decide, congrArg num (by decide +kernel)⟩
  · exact Or.inl ⟨.pc, by decide, by decide, congrArg num (by decide +kernel)⟩
  · exact Or.inr ⟨rfl, rfl⟩

theorem text_ne {n : Spelling} (h : n.WF) : n.text ≠ [] := by
  simp [Spelling.text, body_ne h]

/-- C03 for every arithmetic: the number read, times the unit's factor, wherever white space stands and whatever the
length is used for. -/
theorem C03_units (n : Spelling) (hn : n.WF) {u : Str} {f : Rat} (hu : (u, f) ∈ Spec.units) {w w' w'' : Str}
    (hw : Blank w) (hw' : Blank w') (hw'' : Blank w'') (vb : Bounds F) (ref : PercRef) :
    (∀ v : F, GoFloat.parse n.text = some v →
      parseBasicFloat (w ++ (n.text ++ w' ++ u) ++ w'') = .ok (v *. num f) ∧
      resolveUnit vb (w ++ (n.text ++ w' ++ u) ++ w'') ref = .ok (v *. num f)) ∧
    ((GoFloat.parse n.text : Option F) = none →
      (parseBasicFloat (w ++ (n.text ++ w' ++ u) ++ w'') : Res F) = .err .badFloat ∧
      resolveUnit vb (w ++ (n.text ++ w' ++ u) ++ w'') ref = .err .badFloat) := by
  have hnum := text_numChar hn
  have htr : Trimmed n.text := trimmed_of_all fun c hc => isSpace_numChar (hnum c hc)
  have key : ∃ k : Unite, findUnit (w ++ (n.text ++ w' ++ u) ++ w'') = (k, n.text) ∧ k ≠ .perc ∧ (toPx k : F) = num f := by
    rcases unit_factor (F := F) hu with ⟨k, hk, hp, hf⟩ | ⟨rfl, rfl⟩
    · exact ⟨k, findUnit_unit hk htr (text_ne hn) hw hw' hw'', hp, hf⟩
    · refine ⟨.px, ?_, by decide, rfl⟩
      have := findUnit_bare (w'' := w' ++ w'') hnum hw (by
        intro c hc; simp only [List.mem_append] at hc
        rcases hc with hc | hc
        · exact hw' c hc
        · exact hw'' c hc)
      simpa using this
  obtain ⟨k, hk, hp, hf⟩ := key
  have hpb : (k == Unite.perc) = false := by simpa using hp
  generalize w ++ (n.text ++ w' ++ u) ++ w'' = s at *
  constructor
  · intro v hv
    unfold parseBasicFloat resolveUnit parseUnit
    simp [hk, hv, hf, hpb]
  · intro hv
    unfold parseBasicFloat resolveUnit parseUnit
    simp [hk, hv]

/-- C03 in exact arithmetic: the number times the unit's factor. -/
theorem C03_units_exact (n : Spelling) (hn : n.WF) {u : Str} {f : Rat} (hu : (u, f) ∈ Spec.units) {w w' w'' : Str}
    (hw : Blank w) (hw' : Blank w') (hw'' : Blank w'') (vb : Bounds ℝ) (ref : PercRef) :
    parseBasicFloat (w ++ (n.text ++ w' ++ u) ++ w'') = .ok ((n.value : ℝ) * f) ∧
    resolveUnit vb (w ++ (n.text ++ w' ++ u) ++ w'') ref = .ok ((n.value : ℝ) * f) :=
  (C03_units n hn hu hw hw' hw'' vb ref).1 _ (parse_real_text hn)

/-- C03, rejection, in exact arithmetic: what is accepted is a number literal with white space and one of the units (or
a percent sign). (Number literals are those of Go: see C69.) -/
theorem C03_rejects_others (s : Str) (v : ℝ) (vb : Bounds ℝ) (ref : PercRef)
    (h : parseBasicFloat s = .ok v ∨ resolveUnit vb s ref = .ok v) :
    ∃ w t w' u w'', s = w ++ (t ++ w' ++ u) ++ w'' ∧ Blank w ∧ Blank w' ∧ Blank w'' ∧ IsGoNumber t ∧
      ((∃ f, (u, f) ∈ Spec.units) ∨ u = "%".toList) := by
  have hp : ∃ x, (GoFloat.parse (findUnit s).2 : Option ℝ) = some x := by
    cases hx : (GoFloat.parse (findUnit s).2 : Option ℝ) with
    | some x => exact ⟨x, rfl⟩
    | none =>
      have : (parseUnit s : Res (ℝ × Bool)) = .err .badFloat := by simp [parseUnit, hx]
      simp [parseBasicFloat, resolveUnit, this] at h
  obtain ⟨x, hx⟩ := hp
  obtain ⟨w, w', w'', suf, h1, h2, h3, h4, h5⟩ := findUnit_spec s
  refine ⟨w, (findUnit s).2, w', suf, w'', h1, h2, h3, h4, isGoNumber_of_parse_real hx, ?_⟩
  rcases h5 with h5 | ⟨_, rfl⟩
  · have : ∀ u ∈ absoluteUnits, (u.2 ∈ Spec.units.map (·.1)) ∨ u.2 = "%".toList := by decide
    rcases this _ h5 with h | h
    · simp only [List.mem_map] at h
      obtain ⟨⟨a, b⟩, hab, rfl⟩ := h
      exact Or.inl ⟨b, hab⟩
    · exact Or.inr h
  · exact Or.inl ⟨1, by simp [Spec.units]⟩

/-- Other units, and units in capitals, are errors. -/
theorem C03_examples_rejected : (parseBasicFloat "5em".toList : Res ℝ) = .err .badFloat ∧
    (parseBasicFloat "5PX".toList : Res ℝ) = .err .badFloat ∧ (parseBasicFloat "5 5px".toList : Res ℝ) = .err .badFloat := by
  have h : ∀ s : Str, parseLit (findUnit s).2 = none → (parseBasicFloat s : Res ℝ) = .err .badFloat := by
    intro s hs
    have : (GoFloat.parse (findUnit s).2 : Option ℝ) = none := by
      change (match parseLit (findUnit s).2 with
        | some (.fin neg q) => some (if neg then -(q : ℝ) else (q : ℝ))
        | _ => none) = none
      rw [hs]
    simp [parseBasicFloat, parseUnit, this]
  exact ⟨h _ (by decide), h _ (by decide), h _ (by decide)⟩

/-- `2.5 cm` is 2.5 * 96 / 2.54 pixels. -/
example (vb : Bounds ℝ) : resolveUnit vb " 2.5 cm".toList .width = .ok ((5 / 2 : ℝ) * (96 / 2.54)) := by
  have hw : Spelling.WF ⟨false, "2".toList, some "5".toList, none⟩ := by
    refine ⟨by unfold Digits; decide, ?_, Or.inl (by decide), ?_⟩
    · intro f hf; cases hf; unfold Digits; decide
    · intro s d h; cases h
  have := (C03_units_exact _ hw (u := "cm".toList) (f := 96 / (254 / 100)) (by simp [Spec.units])
    (w := " ".toList) (w' := " ".toList) (w'' := []) (by unfold Blank; decide) (by unfold Blank; decide) (by simp [Blank]) vb .width).2
  have hv : (Spelling.value ⟨false, "2".toList, some "5".toList, none⟩) = 5 / 2 := by decide +kernel
  rw [hv] at this
  have e : (" ".toList ++ ((Spelling.text ⟨false, "2".toList, some "5".toList, none⟩) ++ " ".toList ++ "cm".toList) ++ []) = " 2.5 cm".toList := by decide
  rw [e] at this
  rw [this]; norm_num

/-! ### C04 -/

/-- C04 in exact arithmetic: percentages of the width, the height, the normalised diagonal. -/
theorem C04_percent (n : Spelling) (hn : n.WF) {w w' w'' : Str} (hw : Blank w) (hw' : Blank w') (hw'' : Blank w'')
    (vb : Bounds ℝ) :
    let s := w ++ (n.text ++ w' ++ "%".toList) ++ w''
    resolveUnit vb s .width = .ok ((n.value : ℝ) / 100 * vb.w) ∧
    resolveUnit vb s .height = .ok ((n.value : ℝ) / 100 * vb.h) ∧
    resolveUnit vb s .diag = .ok ((n.value : ℝ) / 100 * (Real.sqrt (vb.w ^ 2 + vb.h ^ 2) / Real.sqrt 2)) := by
  intro s
  have hnum := text_numChar hn
  have htr : Trimmed n.text := trimmed_of_all fun c hc => isSpace_numChar (hnum c hc)
  have hk : findUnit s = (.perc, n.text) := findUnit_unit (by decide) htr (text_ne hn) hw hw' hw''
  have hu : (parseUnit s : Res (ℝ × Bool)) = .ok ((n.value : ℝ), true) := by
    simp [parseUnit, hk, parse_real_text hn, toPx]
  refine ⟨?_, ?_, ?_⟩
  · simp [resolveUnit, hu]
  · simp [resolveUnit, hu]
  · simp [resolveUnit, hu, root2, sq]

/-- C04, second part, for every arithmetic: a length that does not end in a percent sign does not depend on the view
box nor on what it is used for. -/
theorem C04_not_percent (s : Str) (h : (trimSpace s).getLast? ≠ some '%') (vb vb' : Bounds F) (ref ref' : PercRef) :
    resolveUnit vb s ref = resolveUnit vb' s ref' := by
  have hk : (findUnit s).1 ≠ .perc := by
    intro hc
    have key : ∀ us : List (Unite × Str), (∀ u ∈ us, u.1 = .perc → u.2 = "%".toList) →
        (findUnitGo (trimSpace s) us).1 ≠ .perc := by
      intro us
      induction us with
      | nil => intro _; simp [findUnitGo]
      | cons u us ih =>
        intro hu
        obtain ⟨u, suf⟩ := u
        simp only [findUnitGo]
        split
        · rename_i hs
          rintro rfl
          have hsuf := hu (.perc, suf) List.mem_cons_self rfl
          simp only at hsuf
          subst hsuf
          obtain ⟨t, ht⟩ := hasSuffix_iff.1 hs
          apply h; rw [← ht]; simp
        · exact ih fun v hv => hu v (List.mem_cons_of_mem _ hv)
    exact key absoluteUnits (by decide) hc
  have hpb : ((findUnit s).1 == Unite.perc) = false := by simpa using hk
  unfold resolveUnit parseUnit
  cases hp : (GoFloat.parse (findUnit s).2 : Option F) with
  | none => simp [hp]
  | some v => simp [hp, hpb]

example (vb vb' : Bounds F) : resolveUnit vb " 12 px".toList .width = resolveUnit vb' " 12 px".toList .diag :=
  C04_not_percent _ (by decide) _ _ _ _

/-! ### C05 -/

/-- C05 in exact arithmetic: the stored number of 1/64 is the truncation; the error is less than 1/64; the stored value
is not farther from zero; and it is exact exactly for multiples of 1/64. -/
theorem C05_quantised (v : ℝ) (h : InFixRange v) :
    IsTrunc (v * 64) (toFix v) ∧ |v - toFix v / 64| < 1 / 64 ∧ |(toFix v / 64 : ℝ)| ≤ |v| ∧ 0 ≤ v * toFix v ∧
    ((toFix v / 64 : ℝ) = v ↔ ∃ k : ℤ, v = k / 64) := by
  have ht : IsTrunc (v * 64) (toFix v) := by rw [toFix_real]; exact toI32_isTrunc _ h.1 h.2
  refine ⟨ht, ?_, ?_, ?_, ?_⟩
  · rcases le_or_gt 0 v with hv | hv
    · have := ht.1 (by linarith)
      rw [abs_lt]; constructor <;> linarith [this.1, this.2]
    · have := ht.2 (by linarith)
      rw [abs_lt]; constructor <;> linarith [this.1, this.2]
  · rcases le_or_gt 0 v with hv | hv
    · have h1 := ht.1 (by linarith)
      have h0 : (0 : ℝ) ≤ toFix v := by
        have : (-1 : ℝ) < toFix v := by linarith [h1.2]
        have : (-1 : ℤ) < toFix v := by exact_mod_cast this
        have : (0 : ℤ) ≤ toFix v := by omega
        exact_mod_cast this
      rw [abs_of_nonneg (by positivity), abs_of_nonneg hv]; linarith [h1.1]
    · have h1 := ht.2 (by linarith)
      have h0 : (toFix v : ℝ) ≤ 0 := by
        have : (toFix v : ℝ) < 1 := by linarith [h1.2]
        have : toFix v < (1 : ℤ) := by exact_mod_cast this
        have : toFix v ≤ (0 : ℤ) := by omega
        exact_mod_cast this
      rw [abs_of_nonpos (by linarith), abs_of_neg hv]; linarith [h1.1]
  · rcases le_or_gt 0 v with hv | hv
    · have h1 := ht.1 (by linarith)
      have h0 : (0 : ℝ) ≤ toFix v := by
        have : (-1 : ℝ) < toFix v := by linarith [h1.2]
        have : (-1 : ℤ) < toFix v := by exact_mod_cast this
        have : (0 : ℤ) ≤ toFix v := by omega
        exact_mod_cast this
      positivity
    · have h1 := ht.2 (by linarith)
      have h0 : (toFix v : ℝ) ≤ 0 := by
        have : (toFix v : ℝ) < 1 := by linarith [h1.2]
        have : toFix v < (1 : ℤ) := by exact_mod_cast this
        have : toFix v ≤ (0 : ℤ) := by omega
        exact_mod_cast this
      nlinarith
  · constructor
    · intro e; exact ⟨toFix v, e.symm⟩
    · rintro ⟨k, rfl⟩
      have hk : IsTrunc ((k : ℝ) / 64 * 64) k := by
        have : ((k : ℝ) / 64 * 64) = k := by ring
        rw [this]
        exact ⟨fun _ => ⟨le_refl _, by linarith⟩, fun _ => ⟨le_refl _, by linarith⟩⟩
      rw [isTrunc_unique ht hk]

example : InFixRange (-3.3) ∧ toFix (-3.3 : ℝ) = -211 := by
  have h : InFixRange (-3.3) := by unfold InFixRange; norm_num
  refine ⟨h, ?_⟩
  have ht := (C05_quantised _ h).1
  apply isTrunc_unique ht
  constructor
  · intro h; norm_num at h
  · intro _; norm_num

/-! ### C59 -/

theorem parseDashes_ok (vb : Bounds F) : ∀ (ts : List Str) (ds : List F),
    ts.map (fun t => resolveUnit vb t .diag) = ds.map .ok → parseDashes vb ts = .ok ds := by
  intro ts
  induction ts with
  | nil =>
    intro ds hd
    cases ds with
    | nil => rfl
    | cons d ds => simp at hd
  | cons t ts ih =>
    intro ds hd
    cases ds with
    | nil => simp at hd
    | cons d ds =>
      simp only [List.map_cons, List.cons.injEq] at hd
      simp only [parseDashes, resolveUnit_trim, hd.1, ih ds hd.2]

theorem resolveUnit_cases (vb : Bounds F) (s : Str) (r : PercRef) :
    (∃ v, resolveUnit vb s r = .ok v) ∨ resolveUnit vb s r = .err .badFloat := by
  cases hp : (GoFloat.parse (findUnit s).2 : Option F) with
  | none => right; simp [resolveUnit, parseUnit, hp]
  | some v =>
    left
    cases hb : (findUnit s).1 == Unite.perc with
    | true => cases r <;> simp [resolveUnit, parseUnit, hp, hb]
    | false => simp [resolveUnit, parseUnit, hp, hb]

theorem parseDashes_err (vb : Bounds F) : ∀ ts : List Str, (∃ t ∈ ts, resolveUnit vb t .diag = .err .badFloat) →
    parseDashes vb ts = .err .badFloat := by
  intro ts
  induction ts with
  | nil => rintro ⟨t, ht, _⟩; simp at ht
  | cons t ts ih =>
    intro h
    simp only [parseDashes, resolveUnit_trim]
    rcases resolveUnit_cases vb t .diag with ⟨v, hv⟩ | hv
    · rw [hv]
      have : ∃ t ∈ ts, resolveUnit vb t .diag = .err .badFloat := by
        obtain ⟨u, hu, he⟩ := h
        simp only [List.mem_cons] at hu
        rcases hu with rfl | hu
        · rw [hv] at he; cases he
        · exact ⟨u, hu, he⟩
      rw [ih this]
    · rw [hv]

/-- C59 for every arithmetic: the dashes are the lengths of the list, in order, and nothing else changes; a list with a
length that is rejected is rejected. -/
theorem C59_dash_array (l : CommaList) (h : l.WF) (hn : l.text ≠ "none".toList) (st : PathStyle F) (c : Cursor F) :
    (∀ ds : List F, l.items.map (fun i => resolveUnit c.svg.viewBox i.2 .diag) = ds.map .ok →
      readStyleAttr st "stroke-dasharray".toList l.text c = (.ok { st with dash := { st.dash with dash := ds } }, c)) ∧
    ((∃ i ∈ l.items, resolveUnit c.svg.viewBox i.2 .diag = .err .badFloat) →
      readStyleAttr st "stroke-dasharray".toList l.text c = (.err .badFloat, c)) := by
  have h0 : (readStyleAttr st "stroke-dasharray".toList l.text : CM F (PathStyle F)) c =
      (do let ds ← SM.lift (parseDashes c.svg.viewBox (splitOnCommaOrSpace l.text))
          pure { st with dash := { st.dash with dash := ds } } : CM F (PathStyle F)) c := by
    unfold readStyleAttr
    simp only [SM.bind_run, SM.get_run]
    repeat rw [if_neg (by decide)]
    rw [if_pos trivial, if_pos hn]
    rfl
  rw [h0, splitOnCommaOrSpace_text l h]
  constructor
  · intro ds hds
    have h1 : parseDashes c.svg.viewBox (l.items.map (·.2)) = .ok ds := by
      apply parseDashes_ok; rw [List.map_map]; exact hds
    simp [SM.bind_run, h1]
  · rintro ⟨i, hi, he⟩
    rw [SM.bind_run, SM.lift_run, parseDashes_err _ _ ⟨i.2, List.mem_map_of_mem hi, he⟩]

/-- `none` keeps the inherited dashes. -/
theorem C59_none (st : PathStyle F) (c : Cursor F) :
    readStyleAttr st "stroke-dasharray".toList "none".toList c = (.ok st, c) := by
  unfold readStyleAttr
  simp only [SM.bind_run, SM.get_run]
  repeat rw [if_neg (by decide)]
  rw [if_pos trivial, if_neg (by simp)]
  rfl

example : CommaList.WF ⟨[([], "5".toList), (", ".toList, "2cm".toList), (" ".toList, "7%".toList)], " ".toList⟩ ∧
    CommaList.text ⟨[([], "5".toList), (", ".toList, "2cm".toList), (" ".toList, "7%".toList)], " ".toList⟩
      = "5, 2cm 7% ".toList := by
  unfold CommaList.WF CommaOrSpace; decide

/-! ### C61 -/

/-- C61 for masks, exactly: which values are accepted, and what they select. -/
theorem C61_selector_iff (v id : Str) : parseSelector v = .ok id ↔
    ((v = [] ∨ v = "none".toList) ∧ id = []) ∨ (')' ∉ id ∧ ∃ rest, v = "url(#".toList ++ id ++ ')' :: rest) := by
  have hsel : ∀ id rest : Str, ')' ∉ id → parseSelector ("url(#".toList ++ id ++ ')' :: rest) = .ok id := by
    intro id rest hid
    have h1 : ¬ (("url(#".toList ++ id ++ ')' :: rest : Str) = [] ∨ "url(#".toList ++ id ++ ')' :: rest = "none".toList) := by
      simp
    have h2 : hasPrefix ("url(#".toList ++ id ++ ')' :: rest) "url(".toList = true := by
      rw [hasPrefix_iff]; exact ⟨'#' :: id ++ ')' :: rest, by simp⟩
    have h3 : ("url(#".toList ++ id ++ ')' :: rest).idxOf? ')' = some ("url(#".toList ++ id).length :=
      idxOf?_append (by simp [hid])
    unfold parseSelector
    rw [if_neg h1, if_pos h2, h3]
    simp
  constructor
  · intro h
    by_cases h1 : v = [] ∨ v = "none".toList
    · left
      refine ⟨h1, ?_⟩
      unfold parseSelector at h
      rw [if_pos h1] at h
      cases h; rfl
    · right
      unfold parseSelector at h
      rw [if_neg h1] at h
      split at h
      · rename_i h2
        cases hi : v.idxOf? ')' with
        | none => rw [hi] at h; simp at h
        | some i =>
          have hm : ')' ∈ v := by
            apply Classical.byContradiction; intro hc
            rw [idxOf?_none.2 hc] at hi; simp at hi
          obtain ⟨a, b, hv, ha⟩ := exists_first hm
          subst hv
          rw [idxOf?_append ha] at h
          simp only [List.take_left] at h
          obtain ⟨r, hr⟩ := hasPrefix_iff.1 h2
          cases hd : a.drop 4 with
          | nil => simp [hd] at h
          | cons x xs =>
            rw [hd] at h
            split at h
            · rename_i id' heq
              simp only [Res.ok.injEq] at h
              subst h
              rw [List.cons.injEq] at heq
              obtain ⟨rfl, rfl⟩ := heq
              have h4 : a.take 4 = "url(".toList := by
                have hl : 4 ≤ a.length := by
                  have := congrArg List.length hd
                  simp at this; omega
                have := congrArg (List.take 4) hr
                rw [List.take_append_of_le_length (by decide), List.take_append_of_le_length hl] at this
                simpa using this.symm
              have ha' : a = "url(#".toList ++ xs := by
                have := List.take_append_drop 4 a
                rw [h4, hd] at this
                rw [← this]; rfl
              refine ⟨?_, b, by rw [ha']⟩
              intro hc; apply ha; rw [ha']; simp [hc]
            · simp at h
      · simp at h
  · rintro (⟨h, rfl⟩ | ⟨hid, rest, rfl⟩)
    · unfold parseSelector; rw [if_pos h]
    · exact hsel id rest hid

/-- C61: any other value is an error (never a panic). -/
theorem C61_selector_error (v : Str) : (∃ id, parseSelector v = .ok id) ∨ ∃ e, parseSelector v = .err e := by
  unfold parseSelector
  split
  · exact Or.inl ⟨_, rfl⟩
  · split
    · split
      · exact Or.inr ⟨_, rfl⟩
      · dsimp only
        split
        · exact Or.inl ⟨_, rfl⟩
        · exact Or.inr ⟨_, rfl⟩
    · exact Or.inr ⟨_, rfl⟩

/-- C61 for gradients: `url(#id)`, with white space allowed inside the parentheses, refers to exactly `id`, whatever
characters `id` consists of (as long as it does not end in white space). -/
theorem C61_gradient_url (svg : Svg F) (d : Option (Pattern F)) (id : Str) (hid : id.getLast?.all (fun c => !isSpace c))
    {w w' : Str} (hw : Blank w) (hw' : Blank w') :
    readGradURL svg ("url(".toList ++ (w ++ '#' :: id ++ w') ++ ")".toList) d =
      (svg.grads.find id).bind fun addr => (svg.gradHeap[addr]?).map fun g => localizeGrad g d := by
  have h1 : hasPrefix ("url(".toList ++ (w ++ '#' :: id ++ w') ++ ")".toList) "url(".toList = true := by
    rw [hasPrefix_iff, List.append_assoc]; exact List.prefix_append _ _
  have h2 : hasSuffix ("url(".toList ++ (w ++ '#' :: id ++ w') ++ ")".toList) ")".toList = true := by
    rw [hasSuffix_iff]; exact List.suffix_append _ _
  have h3 : (("url(".toList ++ (w ++ '#' :: id ++ w') ++ ")".toList).drop 4).dropLast = w ++ '#' :: id ++ w' := by
    rw [List.append_assoc, List.drop_append_of_le_length (by decide)]
    have : ("url(".toList).drop 4 = [] := by decide
    rw [this, List.nil_append]
    exact List.dropLast_concat
  have h4 : Trimmed ('#' :: id) := by
    constructor
    · intro c hc; simp at hc; subst hc; decide
    · intro c hc
      cases hl : id.getLast? with
      | none => simp at hl; subst hl; simp at hc; subst hc; decide
      | some x =>
        rw [hl] at hid
        have : ('#' :: id).getLast? = some x := by
          cases id with
          | nil => simp at hl
          | cons a as => rw [List.getLast?_cons_cons]; exact hl
        rw [this] at hc; cases hc
        simpa using hid
  unfold readGradURL
  rw [h1, h2, h3, trimSpace_pad hw hw' h4]
  simp only [Bool.and_self, if_true]
  cases svg.grads.find id <;> rfl

/-- C61 for gradients, the other values: nothing is referred to. -/
theorem C61_gradient_url_other (svg : Svg F) (d : Option (Pattern F)) (v : Str)
    (h : ∀ w w' id : Str, Blank w → Blank w' → v ≠ "url(".toList ++ (w ++ '#' :: id ++ w') ++ ")".toList) :
    readGradURL svg v d = none := by
  unfold readGradURL
  split
  · rename_i hps
    rw [Bool.and_eq_true] at hps
    obtain ⟨r, hr⟩ := hasPrefix_iff.1 hps.1
    obtain ⟨l, hl⟩ := hasSuffix_iff.1 hps.2
    split
    · rename_i id heq
      exfalso
      obtain ⟨w, w', hw, hb, hb', _⟩ := trimSpace_spec (v.drop 4).dropLast
      rw [heq] at hw
      apply h w w' id hb hb'
      rw [← hw]
      have hd : v.drop 4 = r := by rw [← hr]; rfl
      rw [hd, ← hr]
      have hrne : r ≠ [] := by
        rintro rfl
        rw [hd] at heq; simp [trimSpace] at heq
      have hlast : r.getLast hrne = ')' := by
        have h1 : v.getLast? = some ')' := by rw [← hl]; simp
        rw [← hr, getLast?_append_ne _ hrne, List.getLast?_eq_some_getLast hrne] at h1
        simpa using h1
      have := List.dropLast_append_getLast hrne
      rw [hlast] at this
      rw [List.append_assoc]
      congr 1
      exact this.symm
    · rfl
  · rfl

example : parseSelector "url(#a.b)".toList = .ok "a.b".toList :=
  (C61_selector_iff _ _).2 (Or.inr ⟨by decide, [], by decide⟩)

end GoSvg
