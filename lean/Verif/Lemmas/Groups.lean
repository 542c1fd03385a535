import Verif.Lemmas.Spelling

/-! Reading a list of numbers in any layout. -/

set_option linter.unusedSectionVars false

namespace GoSvg

open Spec

variable {F : Type} [GoFloat F] [GoEnv]

/-- Lists of groups (the general case), for every arithmetic: the spellings are handed to the number reader one by one
in order, and nothing else is. The factor is the one of a pixel. -/
theorem groups_read (l : GroupList) (h : l.WF) (c : PathCursor F) :
    (∀ ps : List F, readAll (l.numbers.map Spelling.text) = some ps →
      getPoints l.text c = (.ok (), { c with points := ps.map (· *. num 1) })) ∧
    (readAll (F := F) (l.numbers.map Spelling.text) = none → ∃ qs, getPoints l.text c = (.err .badFloat, { c with points := qs })) := by
  have ht : l.text = runsText (l.items.map fun i => (i.1, groupRun i.2)) l.last := by
    simp only [GroupList.text, runsText, List.flatMap_map, groupRun_text]
  have hw : RunsWF (l.items.map fun i => (i.1, groupRun i.2)) := by
    constructor
    · intro i hi
      simp only [List.mem_map] at hi
      obtain ⟨j, hj, rfl⟩ := hi
      exact ⟨groupRun_wf (h.2.1 j hj).1, (h.2.1 j hj).2⟩
    · intro i hi
      rw [← List.map_tail, List.mem_map] at hi
      obtain ⟨j, hj, rfl⟩ := hi
      exact h.2.2 j hj
  have he : ((l.items.map fun i => (i.1, groupRun i.2)).flatMap fun i => pointPieces [] true i.2.text)
      = l.numbers.map Spelling.text := by
    simp only [List.flatMap_map, GroupList.numbers, List.map_flatMap]
    have : ∀ is : List (Str × Group), (∀ i ∈ is, i.2.WF) →
        is.flatMap (fun i => pointPieces [] true (groupRun i.2).text) = is.flatMap fun i => i.2.numbers.map Spelling.text := by
      intro is
      induction is with
      | nil => intro _; rfl
      | cons i is ih =>
        intro hi
        rw [List.flatMap_cons, List.flatMap_cons, ih fun j hj => hi j (List.mem_cons_of_mem _ hj), groupRun_text,
          pointPieces_group (hi i List.mem_cons_self)]
    exact this l.items fun i hi => (h.2.1 i hi).1
  have hn : ∀ t ∈ l.numbers.map Spelling.text, ∀ c ∈ t, NumChar c := by
    intro t ht c hc
    simp only [List.mem_map, GroupList.numbers, List.mem_flatMap] at ht
    obtain ⟨n, ⟨i, hi, hn⟩, rfl⟩ := ht
    have hg := (h.2.1 i hi).1
    apply text_numChar (n := n) _ c hc
    simp only [Group.numbers, List.mem_cons] at hn
    rcases hn with rfl | hn
    · exact hg.first
    · exact (hg.more n hn).1
  rw [ht, getPoints_runs _ _ hw h.1, he]
  simp only [SM.bind_run, SM.modify_run]
  have := pushAll (F := F) _ hn { c with points := [] }
  constructor
  · intro ps hps
    rw [this.1 ps hps]; simp
  · intro hps
    obtain ⟨qs, hq⟩ := this.2 hps
    exact ⟨qs, by rw [hq]⟩


end GoSvg
