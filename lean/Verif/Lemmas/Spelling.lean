import Verif.Lemmas.Tokens
import Verif.Model.Decimal

/-! Spellings as runs of the tokeniser, and their values. -/

set_option linter.unusedSectionVars false

namespace GoSvg

variable [GoEnv]

open Spec

theorem digits_no {d : Char} (hd : d.isDigit = false) {s : Str} (h : Digits s) : d ∉ s := by
  intro hm
  rw [h d hm] at hd; cases hd

/-- The part after the integer part and the fraction. -/
def expText (e : Option (Bool × Str)) : Str :=
  match e with | some (s, d) => 'e' :: ((if s then ['-'] else []) ++ d) | none => []

def fracText (f : Option Str) : Str := match f with | some f => '.' :: f | none => []

theorem body_eq (n : Spelling) : n.body = n.ip ++ fracText n.frac ++ expText n.exp := rfl

theorem no_point_exp {n : Spelling} (h : n.WF) : '.' ∉ expText n.exp := by
  cases he : n.exp with
  | none => simp [expText]
  | some p =>
    obtain ⟨s, d⟩ := p
    have := digits_no (d := '.') (by decide) (h.exp s d he).1
    cases s <;> simp [expText, this]

theorem cont_exp {n : Spelling} (h : n.WF) (lr : Char) : Cont lr (expText n.exp) := by
  cases he : n.exp with
  | none => trivial
  | some p =>
    obtain ⟨s, d⟩ := p
    have hd := (h.exp s d he).1
    cases s with
    | false => exact ⟨by simp, by simpa using cont_digits hd⟩
    | true => exact ⟨by simp, by simp, by simpa using cont_digits hd⟩

theorem cont_frac {n : Spelling} (h : n.WF) (lr : Char) : Cont lr (fracText n.frac) := by
  cases he : n.frac with
  | none => trivial
  | some f => exact ⟨by simp, cont_digits (h.frac f he)⟩

theorem cont_body {n : Spelling} (h : n.WF) (lr : Char) : Cont lr n.body := by
  rw [body_eq]
  rw [cont_append, cont_append]
  exact ⟨⟨cont_digits h.ip, cont_frac h _⟩, cont_exp h _⟩

theorem body_ne {n : Spelling} (h : n.WF) : n.body ≠ [] := by
  rw [body_eq]
  rcases h.some_digit with h | ⟨f, h, h'⟩
  · simp [h]
  · simp [h, fracText]

theorem getLast?_append_ne (a : Str) {b : Str} (h : b ≠ []) : (a ++ b).getLast? = b.getLast? := by
  rw [List.getLast?_append]
  cases hb : b.getLast? with
  | none => simp at hb; exact absurd hb h
  | some x => rfl

theorem digits_last {s : Str} (h : Digits s) (hne : s ≠ []) (pre : Str) : ∃ d, (pre ++ s).getLast? = some d ∧ d.isDigit = true := by
  refine ⟨s.getLast hne, ?_, h _ (List.getLast_mem hne)⟩
  rw [getLast?_append_ne _ hne, List.getLast?_eq_some_getLast hne]

theorem body_last {n : Spelling} (h : n.WF) : n.body.getLast? ≠ some 'e' := by
  intro hc
  rw [body_eq] at hc
  cases he : n.exp with
  | some p =>
    obtain ⟨s, d⟩ := p
    have hd := h.exp s d he
    have : n.ip ++ fracText n.frac ++ expText n.exp =
        (n.ip ++ fracText n.frac ++ 'e' :: (if s then ['-'] else [])) ++ d := by
      simp [expText, he]
    rw [this] at hc
    obtain ⟨x, hx, hx'⟩ := digits_last hd.1 hd.2 (n.ip ++ fracText n.frac ++ 'e' :: (if s then ['-'] else []))
    rw [hx] at hc
    simp at hc; subst hc; simp at hx'
  | none =>
    rw [he] at hc
    simp only [expText, List.append_nil] at hc
    have hm := List.mem_of_mem_getLast? hc
    rw [List.mem_append] at hm
    rcases hm with hm | hm
    · exact absurd hm (digits_no (by decide) h.ip)
    · cases hf : n.frac with
      | none => rw [hf] at hm; simp [fracText] at hm
      | some f =>
        rw [hf] at hm
        simp only [fracText, List.mem_cons] at hm
        rcases hm with hm | hm
        · cases hm
        · exact absurd hm (digits_no (by decide) (h.frac f hf))

/-- The run a group of numbers forms. -/
def groupRun (g : Group) : Run := ⟨g.first.neg, g.first.body ++ g.more.flatMap Spelling.text⟩

theorem groupRun_text (g : Group) : (groupRun g).text = g.text := by
  simp only [groupRun, Run.text, Group.text, Group.numbers, List.flatMap_cons]
  simp only [Spelling.text, List.append_assoc]
  rfl

theorem more_text {n : Spelling} (h : n.neg = false ∧ n.ip = [] ∧ n.frac ≠ none) :
    ∃ f, n.frac = some f ∧ n.text = '.' :: (f ++ expText n.exp) := by
  obtain ⟨h1, h2, h3⟩ := h
  cases hf : n.frac with
  | none => exact absurd hf h3
  | some f => exact ⟨f, rfl, by simp [Spelling.text, body_eq, h1, h2, hf, fracText]⟩

theorem cont_more : ∀ (ns : List Spelling) (lr : Char), (∀ n ∈ ns, n.WF ∧ n.neg = false ∧ n.ip = [] ∧ n.frac ≠ none) →
    Cont lr (ns.flatMap Spelling.text) := by
  intro ns
  induction ns with
  | nil => intro lr _; trivial
  | cons n ns ih =>
    intro lr h
    have hn := h n List.mem_cons_self
    rw [List.flatMap_cons, cont_append]
    refine ⟨?_, ih _ fun m hm => h m (List.mem_cons_of_mem _ hm)⟩
    have : n.text = n.body := by simp [Spelling.text, hn.2.1]
    rw [this]; exact cont_body hn.1 lr

theorem last_more : ∀ (ns : List Spelling) (b : Str), (∀ n ∈ ns, n.WF ∧ n.neg = false ∧ n.ip = [] ∧ n.frac ≠ none) →
    b ≠ [] → b.getLast? ≠ some 'e' → (b ++ ns.flatMap Spelling.text).getLast? ≠ some 'e' := by
  intro ns
  induction ns with
  | nil => intro b _ _ hb; simpa using hb
  | cons n ns ih =>
    intro b h hne hb
    have hn := h n List.mem_cons_self
    rw [List.flatMap_cons, ← List.append_assoc]
    have e : n.text = n.body := by simp [Spelling.text, hn.2.1]
    apply ih _ fun m hm => h m (List.mem_cons_of_mem _ hm)
    · simp [hne]
    · rw [e, getLast?_append_ne _ (body_ne hn.1)]
      exact body_last hn.1

theorem groupRun_wf {g : Group} (h : g.WF) : (groupRun g).WF where
  cont lr _ := by
    simp only [groupRun, cont_append]
    exact ⟨cont_body h.first lr, cont_more _ _ h.more⟩
  ne := by simp [groupRun, body_ne h.first]
  no_e := last_more _ _ h.more (body_ne h.first) (body_last h.first)

/-- A group is cut exactly into its numbers. -/
theorem pointPieces_group {g : Group} (h : g.WF) : pointPieces [] true g.text = g.numbers.map Spelling.text := by
  have e : g.text = ((if g.first.neg then ['-'] else []) ++ g.first.ip) ++
      (fracText g.first.frac ++ (expText g.first.exp ++ g.more.flatMap Spelling.text)) := by
    simp [Group.text, Group.numbers, Spelling.text, body_eq]
  have h1 : '.' ∉ (if g.first.neg then ['-'] else []) ++ g.first.ip := by
    have := digits_no (d := '.') (by decide) h.first.ip
    cases g.first.neg <;> simp [this]
  rw [e, pointPieces_append h1]
  cases hf : g.first.frac with
  | none =>
    have hm : g.more = [] := by
      apply Classical.byContradiction
      intro hc; exact h.point hc hf
    simp only [fracText, hm, List.flatMap_nil, List.append_nil, List.nil_append]
    rw [pointPieces_no_point (no_point_exp h.first)]
    simp [Group.numbers, hm, Spelling.text, body_eq, hf, fracText]
  | some f =>
    have h2 : '.' ∉ f ++ expText g.first.exp := by
      rw [List.mem_append, not_or]
      exact ⟨digits_no (by decide) (h.first.frac f hf), no_point_exp h.first⟩
    simp only [fracText, List.cons_append]
    rw [pointPieces, if_pos rfl, if_pos rfl, ← List.append_assoc f, pointPieces_append h2]
    -- the later numbers
    have hmore : ∀ ns : List Spelling, (∀ n ∈ ns, n.WF ∧ n.neg = false ∧ n.ip = [] ∧ n.frac ≠ none) →
        ∃ fs : List Str, (∀ f ∈ fs, '.' ∉ f) ∧ ns.map Spelling.text = fs.map ('.' :: ·) ∧
          ns.flatMap Spelling.text = fs.flatMap ('.' :: ·) := by
      intro ns
      induction ns with
      | nil => intro _; exact ⟨[], by simp, rfl, rfl⟩
      | cons n ns ih =>
        intro hns
        obtain ⟨fs, a, b, c⟩ := ih fun m hm => hns m (List.mem_cons_of_mem _ hm)
        obtain ⟨hw, hr⟩ := hns n List.mem_cons_self
        obtain ⟨f', hf', ht⟩ := more_text hr
        refine ⟨(f' ++ expText n.exp) :: fs, ?_, ?_, ?_⟩
        · intro x hx
          simp only [List.mem_cons] at hx
          rcases hx with rfl | hx
          · rw [List.mem_append, not_or]
            exact ⟨digits_no (by decide) (hw.frac f' hf'), no_point_exp hw⟩
          · exact a x hx
        · simp [b, ht]
        · simp [c, ht]
    obtain ⟨fs, a, b, c⟩ := hmore g.more h.more
    rw [c, pointPieces_points _ fs a, ← b]
    simp [Group.numbers, Spelling.text, body_eq, hf, fracText]

theorem numChar_of_cont {lr : Char} {s : Str} (h : Cont lr s) : ∀ c ∈ s, NumChar c := by
  induction s generalizing lr with
  | nil => simp
  | cons d ds ih =>
    intro c hc
    simp only [List.mem_cons] at hc
    rcases hc with rfl | hc
    · rcases h.1 with h | h | h | h
      · exact Or.inl h
      · exact Or.inr (Or.inl h)
      · exact Or.inr (Or.inr (Or.inl h))
      · exact Or.inr (Or.inr (Or.inr h.1))
    · exact ih h.2 c hc

theorem text_numChar {n : Spelling} (h : n.WF) : ∀ c ∈ n.text, NumChar c := by
  intro c hc
  simp only [Spelling.text, List.mem_append] at hc
  rcases hc with hc | hc
  · cases hn : n.neg <;> simp [hn] at hc
    exact Or.inr (Or.inr (Or.inr hc))
  · exact numChar_of_cont (cont_body h ' ') c hc

/-! ### Values -/

theorem takeDigits_append {s t : Str} (h : Digits s) (ht : ∀ c, t.head? = some c → c.isDigit = false) :
    takeDigits (s ++ t) = (s, t) := by
  induction s with
  | nil =>
    cases t with
    | nil => rfl
    | cons c cs => simp [takeDigits, ht c rfl]
  | cons c cs ih =>
    rw [List.cons_append, takeDigits, if_pos (h c List.mem_cons_self)]
    rw [ih fun d hd => h d (List.mem_cons_of_mem _ hd)]

theorem exp_head {n : Spelling} : ∀ c, (expText n.exp).head? = some c → c.isDigit = false := by
  intro c hc
  cases he : n.exp with
  | none => simp [he, expText] at hc
  | some p => simp [he, expText] at hc; subst hc; decide

theorem frac_head {n : Spelling} : ∀ c, (fracText n.frac ++ expText n.exp).head? = some c → c.isDigit = false := by
  intro c hc
  cases he : n.frac with
  | none => rw [he] at hc; exact exp_head c (by simpa [fracText] using hc)
  | some p => simp [he, fracText] at hc; subst hc; decide

theorem takeSign_digits {s : Str} (h : ∀ c, s.head? = some c → c ≠ '-' ∧ c ≠ '+') : takeSign s = (false, s) := by
  cases s with
  | nil => rfl
  | cons c cs =>
    have := h c rfl
    unfold takeSign
    split
    · rename_i heq; simp at heq; exact absurd heq.1 this.1
    · rename_i heq; simp at heq; exact absurd heq.1 this.2
    · rfl

theorem body_head {n : Spelling} (h : n.WF) : ∀ c, n.body.head? = some c → c ≠ '-' ∧ c ≠ '+' := by
  intro c hc
  cases hb : n.body with
  | nil => rw [hb] at hc; simp at hc
  | cons d ds =>
    have := cont_body h ' '
    rw [hb] at this hc
    simp at hc; subst hc
    rcases this.1 with h | h | h | h
    · constructor <;> rintro rfl <;> simp at h
    · subst h; decide
    · subst h; decide
    · exact absurd h.2 (by decide)

theorem digitsVal_eq (s : Str) : digitsVal s = natVal s := rfl

theorem natVal_go (s : Str) : ∀ acc, s.foldl (fun n c => n * 10 + (c.toNat - '0'.toNat)) acc = acc * 10 ^ s.length + natVal s := by
  unfold natVal
  induction s with
  | nil => intro acc; simp
  | cons c cs ih =>
    intro acc
    simp only [List.foldl_cons, List.length_cons]
    rw [ih, ih (0 * 10 + _)]
    simp only [Nat.zero_mul, Nat.zero_add, Nat.add_mul, Nat.pow_succ]
    rw [Nat.mul_assoc, Nat.mul_comm 10, Nat.add_assoc]

theorem natVal_append (s t : Str) : natVal (s ++ t) = natVal s * 10 ^ t.length + natVal t := by
  have := natVal_go t (natVal s)
  rw [← this]
  simp [natVal, List.foldl_append]

theorem parseExp_exp {n : Spelling} (h : n.WF) : parseExp (expText n.exp) = some (match n.exp with
    | some (true, d) => -(natVal d : Int)
    | some (false, d) => (natVal d : Int)
    | none => 0) := by
  cases he : n.exp with
  | none => rfl
  | some p =>
    obtain ⟨s, d⟩ := p
    obtain ⟨hd, hne⟩ := h.exp s d he
    have ht := takeDigits_append (t := []) hd (by simp)
    rw [List.append_nil] at ht
    cases s with
    | true =>
      simp only [expText, if_true, List.singleton_append, parseExp, true_or, takeSign, ht]
      simp [hne, digitsVal_eq]
    | false =>
      have hs : takeSign d = (false, d) := takeSign_digits (by
        intro c hc
        have := hd c (List.mem_of_mem_head? hc)
        constructor <;> rintro rfl <;> simp at this)
      simp only [expText, if_false, Bool.false_eq_true, List.nil_append, parseExp, true_or, if_true, hs, ht]
      simp [hne, digitsVal_eq]

end GoSvg
