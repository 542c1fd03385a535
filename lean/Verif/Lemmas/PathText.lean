import Verif.Lemmas.PathSem
import Verif.Lemmas.Groups
import Mathlib.Data.List.Forall2

/-! From the text of a path to its segments, and two runs of the path parser side by side. -/

set_option linter.unusedSectionVars false
set_option linter.unusedSimpArgs false

namespace GoSvg

variable {F : Type} [GoFloat F] [GoEnv]

open SM (get modify throw lift panic diverge forEach)
open Spec

/-! ### Segments -/

/-- The segments of a path text: each starts at a letter other than `e`. -/
def segsGo : Option Str → Str → List Str
  | cur, [] => cur.toList
  | cur, v :: vs =>
    if startsSeg v then cur.toList ++ segsGo (some [v]) vs
    else segsGo (cur.map (· ++ [v])) vs

theorem compileGo_eq (s : Str) : ∀ cur, (compileGo cur s : PM F Unit) = forEach addSeg (segsGo cur s) := by
  induction s with
  | nil =>
    intro cur
    cases cur with
    | none => rfl
    | some t => simp only [compileGo, segsGo, Option.toList, forEach]; exact (sm_bind_pure _).symm
  | cons v vs ih =>
    intro cur
    cases cur with
    | none =>
      rw [compileGo, segsGo]
      split
      · rw [ih]; rfl
      · exact ih none
    | some t =>
      rw [compileGo, segsGo]
      split
      · rw [ih]; rfl
      · exact ih _

theorem segsGo_plain (t : Str) (h : ∀ c ∈ t, startsSeg c = false) (rest : Str) : ∀ cur : Option Str,
    segsGo cur (t ++ rest) = segsGo (cur.map (· ++ t)) rest := by
  induction t with
  | nil => intro cur; cases cur <;> simp
  | cons c cs ih =>
    intro cur
    rw [List.cons_append, segsGo, h c List.mem_cons_self]
    simp only [Bool.false_eq_true, if_false]
    rw [ih fun d hd => h d (List.mem_cons_of_mem _ hd)]
    cases cur <;> simp

/-- A segment: a letter and what belongs to it. -/
def IsSegment (t : Str) : Prop := ∃ k body, t = k :: body ∧ startsSeg k = true ∧ ∀ c ∈ body, startsSeg c = false

theorem segsGo_segments (ts : List Str) (h : ∀ t ∈ ts, IsSegment t) (rest : Str) : ∀ cur : Option Str,
    segsGo cur (ts.flatten ++ rest) = match ts.getLast? with
      | none => segsGo cur rest
      | some l => cur.toList ++ ts.dropLast ++ segsGo (some l) rest := by
  induction ts with
  | nil => intro cur; rfl
  | cons t ts ih =>
    intro cur
    obtain ⟨k, body, rfl, hk, hb⟩ := h t List.mem_cons_self
    have ih := ih fun t ht => h t (List.mem_cons_of_mem _ ht)
    simp only [List.flatten_cons, List.append_assoc, List.cons_append]
    rw [segsGo, hk]
    simp only [if_true]
    rw [segsGo_plain body hb, ih]
    cases ts with
    | nil => simp
    | cons u us =>
      simp only [Option.map_some, List.getLast?_cons_cons, List.dropLast_cons_cons, Option.toList, List.singleton_append]
      cases hl : (u :: us).getLast? with
      | none => simp at hl
      | some l => cases cur <;> simp

theorem segsGo_all (pre : Str) (hpre : ∀ c ∈ pre, startsSeg c = false) (ts : List Str) (h : ∀ t ∈ ts, IsSegment t) :
    segsGo none (pre ++ ts.flatten) = ts := by
  rw [segsGo_plain pre hpre]
  have := segsGo_segments ts h [] none
  rw [List.append_nil] at this
  simp only [Option.map_none]
  rw [this]
  cases hl : ts.getLast? with
  | none => simp at hl; subst hl; rfl
  | some l =>
    have hne : ts ≠ [] := by intro h; subst h; simp at hl
    rw [List.getLast?_eq_some_getLast hne, Option.some.injEq] at hl
    subst hl
    simp only [segsGo, Option.toList, List.nil_append]
    exact List.dropLast_concat_getLast hne

theorem compilePath_segs (s : Str) (c : PathCursor F) :
    compilePath s c = forEach addSeg (segsGo none s) c.init := by
  unfold compilePath
  rw [SM.bind_run, SM.modify_run, compileGo_eq]

theorem compilePath_text (pre : Str) (hpre : ∀ c ∈ pre, startsSeg c = false) (ts : List Str) (h : ∀ t ∈ ts, IsSegment t)
    (c : PathCursor F) : compilePath (pre ++ ts.flatten) c = forEach addSeg ts c.init := by
  rw [compilePath_segs, segsGo_all pre hpre ts h]

/-! ### The text of a command is a segment -/

theorem startsSeg_sep {c : Char} (h : PathSep c) : startsSeg c = false := by
  unfold startsSeg; rw [h.2]; rfl

theorem startsSeg_numChar {c : Char} (h : NumChar c) : startsSeg c = false := by
  unfold startsSeg
  rcases h with h | h | h | h
  · have h1 := isNumber_digit h
    cases hl : GoEnv.isLetter c with
    | false => rfl
    | true => rw [GoEnv.letter_not_number c hl] at h1; cases h1
  · subst h; rw [GoEnv.isLetter_ascii _ (by decide)]; decide
  · subst h; simp
  · subst h; rw [GoEnv.isLetter_ascii _ (by decide)]; decide

theorem group_numChar {g : Group} (h : g.WF) : ∀ c ∈ g.text, NumChar c := by
  intro c hc
  simp only [Group.text, List.mem_flatMap, Group.numbers, List.mem_cons] at hc
  obtain ⟨n, hn, hc⟩ := hc
  rcases hn with rfl | hn
  · exact text_numChar h.first c hc
  · exact text_numChar (h.more n hn).1 c hc

/-- The layout uses no letters between the numbers. -/
def NoLetters (l : GroupList) : Prop := (∀ c ∈ l.last, PathSep c) ∧ ∀ i ∈ l.items, ∀ c ∈ i.1, PathSep c

theorem groupList_plain {l : GroupList} (h : l.WF) (h1 : NoLetters l) : ∀ c ∈ l.text, startsSeg c = false := by
  intro c hc
  simp only [GroupList.text, List.mem_append, List.mem_flatMap] at hc
  rcases hc with ⟨i, hi, hc | hc⟩ | hc
  · exact startsSeg_sep (h1.2 i hi c hc)
  · exact startsSeg_numChar (group_numChar (h.2.1 i hi).1 c hc)
  · exact startsSeg_sep (h1.1 c hc)

theorem startsSeg_letter {k : Char} (hk : k ∈ pathLetters) : startsSeg k = true := by
  unfold startsSeg
  have h : ∀ k ∈ pathLetters, k.toNat < 128 ∧ k.isAlpha = true ∧ (k != 'e') = true := by decide
  obtain ⟨h1, h2, h3⟩ := h k hk
  rw [GoEnv.isLetter_ascii _ h1, h2, h3]; rfl

theorem letter_mem (cmd : Cmd F) : cmd.letter ∈ pathLetters := by
  cases cmd with
  | move r | line r | horiz r | vert r | cubic r | smooth r | quad r | tquad r | close r => cases r <;> simp [Cmd.letter] <;> decide

theorem writes_segment {k : Char} {args : List F} {t : Str} (hk : startsSeg k = true) (h : Writes k args t) : IsSegment t := by
  obtain ⟨l, vs, rfl, h1, h2, h3, -, -⟩ := h
  exact ⟨_, _, rfl, hk, groupList_plain h1 ⟨h2, h3⟩⟩

theorem written_segment {cmd : Cmd F} {t : Str} (h : Written cmd t) : IsSegment t :=
  writes_segment (startsSeg_letter (letter_mem cmd)) h

theorem writes_points {k : Char} {args : List F} {t : Str} (h : Writes k args t) (c : PathCursor F) :
    addSeg t c = (do segSwitch k; modify fun c => { c with lastKey := k } : PM F Unit) { c with points := args } := by
  obtain ⟨l, vs, rfl, h1, -, -, h4, h5⟩ := h
  rw [addSeg, SM.bind_run, (groups_read l h1 c).1 vs h4]
  simp only [h5]

theorem written_points {cmd : Cmd F} {t : Str} (h : Written cmd t) (c : PathCursor F) :
    addSeg t c = (do segSwitch cmd.letter; modify fun c => { c with lastKey := cmd.letter } : PM F Unit)
      { c with points := cmd.args } := writes_points h c

theorem refines_written {isOpen isOpen' : Bool} {cmd : Cmd F} {t : Str} (hw : Written cmd t) (hr : Refines isOpen cmd isOpen')
    (c : PathCursor F) (s : St F) (h : Rel isOpen c s) :
    ∃ c', addSeg t c = (.ok (), c') ∧ Same c c' ∧ c'.path = c.path ++ (exec s cmd.segs).1.map (sto c) ∧
      Rel isOpen' c' (exec s cmd.segs).2 := by
  obtain ⟨c', h1, h2, h3, h4⟩ := hr { c with points := cmd.args } s ⟨h.cur, h.inPath, h.start, h.ctrl⟩ rfl
  refine ⟨{ c' with lastKey := cmd.letter }, ?_, ⟨h2.1, h2.2, h2.3, h2.4⟩, h3, h4⟩
  rw [written_points hw, SM.bind_run, h1]
  rfl

/-- All commands of a path. -/
theorem refines_all : ∀ (cmds : List (Cmd F)) (ts : List Str) (isOpen : Bool) (c : PathCursor F) (s : St F),
    List.Forall₂ Written cmds ts → StartsWithMoves isOpen cmds → Rel isOpen c s →
    ∃ c' isOpen', forEach addSeg ts c = (.ok (), c') ∧ Same c c' ∧
      c'.path = c.path ++ (exec s (cmds.flatMap Cmd.segs)).1.map (sto c) ∧
      Rel isOpen' c' (exec s (cmds.flatMap Cmd.segs)).2 := by
  intro cmds
  induction cmds with
  | nil =>
    intro ts isOpen c s hw _ hr
    cases hw
    exact ⟨c, isOpen, rfl, ⟨rfl, rfl, rfl, rfl⟩, by simp [exec], hr⟩
  | cons cmd cmds ih =>
    intro ts isOpen c s hw hs hr
    cases hw with
    | cons hw hws =>
      rename_i t ts
      obtain ⟨hs', hrf⟩ := startsWithMoves_cons hs
      obtain ⟨c1, h1, h2, h3, h4⟩ := refines_written hw hrf c s hr
      obtain ⟨c2, o, g1, g2, g3, g4⟩ := ih ts _ c1 _ hws hs' h4
      refine ⟨c2, o, ?_, ⟨g2.1.trans h2.1, g2.2.trans h2.2, g2.3.trans h2.3, g2.4.trans h2.4⟩, ?_, ?_⟩
      · show (addSeg t >>= fun _ => forEach addSeg ts) c = _
        rw [SM.bind_run, h1]
        exact g1
      · have hsto : sto c1 = sto c := by
          funext o
          simp only [sto]
          rw [h2.1, h2.2]
        rw [g3, h3, List.flatMap_cons, exec_append, hsto]
        simp
      · rw [List.flatMap_cons, exec_append]
        exact g4

theorem rel_init (c : PathCursor F) : Rel false c.init ⟨(num 0, num 0), (num 0, num 0), .none⟩ :=
  ⟨rfl, rfl, by simp, show ' ' ∉ quadKeys ∧ ' ' ∉ cubeKeys from ⟨by decide, by decide⟩⟩

end GoSvg
