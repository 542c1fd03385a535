import Verif.Lemmas.Strings
import Verif.Spec.Numbers

/-! The number tokeniser. -/

set_option linter.unusedSectionVars false
set_option linter.unusedSimpArgs false

namespace GoSvg

variable {F : Type} [GoFloat F] [GoEnv]

open SM (get modify throw lift panic diverge forEach)

/-- The characters a number token is made of. -/
def NumChar (c : Char) : Prop := c.isDigit = true ∨ c = '.' ∨ c = 'e' ∨ c = '-'

theorem isDigit_lt {c : Char} (h : c.isDigit = true) : c.toNat < 128 := by
  simp only [Char.isDigit, Bool.and_eq_true, decide_eq_true_eq] at h
  have := UInt32.le_iff_toNat_le.1 h.2
  have e : c.toNat = c.val.toNat := rfl
  rw [e]
  exact lt_of_le_of_lt' this
where
  lt_of_le_of_lt' {n : Nat} (h : n ≤ '9'.val.toNat) : n < 128 := by
    have : '9'.val.toNat = 57 := rfl
    omega

theorem isNumber_digit {c : Char} (h : c.isDigit = true) : GoEnv.isNumber c = true := by
  rw [GoEnv.isNumber_ascii c (isDigit_lt h), h]

theorem digit_range {c : Char} (h : c.isDigit = true) : 48 ≤ c.toNat ∧ c.toNat ≤ 57 := by
  simp only [Char.isDigit, Bool.and_eq_true, decide_eq_true_eq] at h
  exact ⟨UInt32.le_iff_toNat_le.1 h.1, UInt32.le_iff_toNat_le.1 h.2⟩

theorem isSpace_digit {c : Char} (h : c.isDigit = true) : isSpace c = false := by
  have := digit_range h
  simp only [isSpace, List.mem_cons, List.not_mem_nil, or_false, Bool.or_eq_false_iff, decide_eq_false_iff_not,
    Bool.and_eq_false_iff, not_or, decide_eq_true_eq]
  omega

theorem isSpace_numChar {c : Char} (h : NumChar c) : isSpace c = false := by
  rcases h with h | h | h | h
  · exact isSpace_digit h
  all_goals subst h; decide

theorem trimmed_of_all {s : Str} (h : ∀ c ∈ s, isSpace c = false) : Trimmed s :=
  ⟨fun c hc => h c (List.mem_of_mem_head? hc), fun c hc => h c (List.mem_of_mem_getLast? hc)⟩

theorem numChar_ne {c d : Char} (h : NumChar c) (hd : d.isDigit = false) (h1 : d ≠ '.') (h2 : d ≠ 'e') (h3 : d ≠ '-') : c ≠ d := by
  rintro rfl
  rcases h with h | h | h | h
  · rw [h] at hd; cases hd
  · exact h1 h
  · exact h2 h
  · exact h3 h

/-- No unit suffix fits a string of number characters. -/
theorem findUnitGo_plain {s : Str} (h : ∀ c ∈ s, NumChar c) : ∀ us : List (Unite × Str),
    (∀ u ∈ us, ∃ d, u.2.getLast? = some d ∧ d.isDigit = false ∧ d ≠ '.' ∧ d ≠ 'e' ∧ d ≠ '-') →
    findUnitGo s us = (.px, s) := by
  intro us hus
  induction us with
  | nil => rfl
  | cons u us ih =>
    obtain ⟨u, suf⟩ := u
    have hn : hasSuffix s suf = false := by
      apply Bool.eq_false_iff.2
      intro hc
      rw [hasSuffix_iff] at hc
      obtain ⟨d, hd, h1, h2, h3, h4⟩ := hus (u, suf) List.mem_cons_self
      have hmem : d ∈ s := hc.subset (List.mem_of_mem_getLast? hd)
      exact numChar_ne (h d hmem) h1 h2 h3 h4 rfl
    simp only [findUnitGo, hn]
    exact ih fun v hv => hus v (List.mem_cons_of_mem _ hv)

theorem absoluteUnits_last : ∀ u ∈ absoluteUnits,
    ∃ d, u.2.getLast? = some d ∧ d.isDigit = false ∧ d ≠ '.' ∧ d ≠ 'e' ∧ d ≠ '-' := by
  intro u hu
  simp only [absoluteUnits, List.mem_cons, List.not_mem_nil, or_false] at hu
  rcases hu with rfl | rfl | rfl | rfl | rfl | rfl | rfl | rfl
  · exact ⟨'x', by decide⟩
  · exact ⟨'m', by decide⟩
  · exact ⟨'m', by decide⟩
  · exact ⟨'t', by decide⟩
  · exact ⟨'n', by decide⟩
  · exact ⟨'Q', by decide⟩
  · exact ⟨'c', by decide⟩
  · exact ⟨'%', by decide⟩

theorem findUnit_plain {s : Str} (h : ∀ c ∈ s, NumChar c) : findUnit s = (.px, s) := by
  unfold findUnit
  rw [trimSpace_of_trimmed (trimmed_of_all fun c hc => isSpace_numChar (h c hc))]
  exact findUnitGo_plain h _ absoluteUnits_last

theorem parseBasicFloat_plain {s : Str} (h : ∀ c ∈ s, NumChar c) :
    (parseBasicFloat s : Res F) = match (GoFloat.parse s : Option F) with
      | none => .err .badFloat
      | some v => .ok (v *. num 1) := by
  unfold parseBasicFloat parseUnit
  rw [findUnit_plain h]
  cases hp : (GoFloat.parse s : Option F) <;> simp [hp, toPx]

/-! ### Splitting at points -/

/-- The texts `readFloat` reads: cut before every point except the first. -/
def pointPieces : Str → Bool → Str → List Str
  | acc, _, [] => [acc]
  | acc, isFirst, n :: ns =>
    if n = '.' then
      if isFirst then pointPieces (acc ++ [n]) false ns else acc :: pointPieces [n] false ns
    else pointPieces (acc ++ [n]) isFirst ns

theorem readFloatGo_eq (s : Str) : ∀ acc b, (readFloatGo acc b s : PM F Unit) = forEach pushFloat (pointPieces acc b s) := by
  induction s with
  | nil =>
    intro acc b
    funext c
    simp only [readFloatGo, pointPieces, forEach]
    rw [SM.bind_run]
    cases h : pushFloat acc c with
    | mk r c' => cases r <;> rfl
  | cons n ns ih =>
    intro acc b
    simp only [readFloatGo, pointPieces]
    split
    · split
      · exact ih _ _
      · rw [ih]; rfl
    · exact ih _ _

theorem pointPieces_no_point {s : Str} (h : '.' ∉ s) : ∀ acc b, pointPieces acc b s = [acc ++ s] := by
  induction s with
  | nil => intro acc b; simp [pointPieces]
  | cons c cs ih =>
    intro acc b
    simp only [List.mem_cons, not_or] at h
    have hc : ¬ c = '.' := fun e => h.1 e.symm
    simp [pointPieces, hc, ih h.2]

theorem pointPieces_append {s t : Str} (h : '.' ∉ s) : ∀ acc b, pointPieces acc b (s ++ t) = pointPieces (acc ++ s) b t := by
  induction s with
  | nil => intro acc b; simp
  | cons c cs ih =>
    intro acc b
    simp only [List.mem_cons, not_or] at h
    have hc : ¬ c = '.' := fun e => h.1 e.symm
    rw [List.cons_append]
    simp [pointPieces, hc, ih h.2]

theorem pointPieces_points (acc : Str) : ∀ fs : List Str, (∀ f ∈ fs, '.' ∉ f) →
    pointPieces acc false (fs.flatMap ('.' :: ·)) = acc :: fs.map ('.' :: ·) := by
  intro fs
  induction fs generalizing acc with
  | nil => intro _; simp [pointPieces]
  | cons f fs ih =>
    intro h
    have hf : '.' ∉ f := h f List.mem_cons_self
    simp only [List.flatMap_cons, List.cons_append]
    rw [pointPieces, if_pos rfl, if_neg (by simp), pointPieces_append hf]
    rw [ih _ fun g hg => h g (List.mem_cons_of_mem _ hg)]
    simp

/-! ### Scanning -/

/-- Ends a run held in `cur`, if any. -/
def flush (cur : Option Str) : PM F Unit :=
  match cur with
  | none => pure ()
  | some s => readFloat s

theorem getPointsGo_nil (cur : Option Str) (lr : Char) : (getPointsGo cur lr [] : PM F Unit) = flush cur := by
  cases cur <;> rfl

theorem getPointsGo_cons (cur : Option Str) (lr r : Char) (rs : Str) : (getPointsGo cur lr (r :: rs) : PM F Unit) =
    if endsNumber lr r then (do flush cur; if r = '-' then getPointsGo (some [r]) r rs else getPointsGo none r rs)
    else getPointsGo (some (cur.getD [] ++ [r])) r rs := by
  cases cur with
  | none => simp only [getPointsGo, flush]; rfl
  | some s => simp only [getPointsGo, flush]; rfl

/-- `s`, read after the character `lr`, continues a number. -/
def Cont : Char → Str → Prop
  | _, [] => True
  | lr, c :: cs => (c.isDigit = true ∨ c = '.' ∨ c = 'e' ∨ (c = '-' ∧ lr = 'e')) ∧ Cont c cs

theorem cont_append {lr : Char} {s t : Str} : Cont lr (s ++ t) ↔ Cont lr s ∧ Cont (s.getLast?.getD lr) t := by
  induction s generalizing lr with
  | nil => simp [Cont]
  | cons c cs ih =>
    rw [List.cons_append]
    simp only [Cont, ih, and_assoc]
    have : ((c :: cs).getLast?).getD lr = (cs.getLast?).getD c := by
      cases cs with
      | nil => rfl
      | cons d ds =>
        rw [List.getLast?_cons_cons]
        cases h : (d :: ds).getLast? with
        | none => simp at h
        | some x => rfl
    rw [this]

theorem cont_digits {lr : Char} {s : Str} (h : Spec.Digits s) : Cont lr s := by
  induction s generalizing lr with
  | nil => trivial
  | cons c cs ih => exact ⟨Or.inl (h c List.mem_cons_self), ih fun d hd => h d (List.mem_cons_of_mem _ hd)⟩

theorem endsNumber_of_cont {lr c : Char} (h : c.isDigit = true ∨ c = '.' ∨ c = 'e' ∨ (c = '-' ∧ lr = 'e')) :
    endsNumber lr c = false := by
  unfold endsNumber
  rcases h with h | h | h | ⟨h, h'⟩
  · simp [isNumber_digit h]
  · simp [h]
  · simp [h]
  · simp [h, h']

theorem scan_cont {s : Str} (rest : Str) : ∀ (acc : Str) (lr : Char), Cont lr s →
    (getPointsGo (some acc) lr (s ++ rest) : PM F Unit)
      = getPointsGo (some (acc ++ s)) (s.getLast?.getD lr) rest := by
  induction s with
  | nil => intro acc lr _; simp
  | cons c cs ih =>
    intro acc lr h
    rw [List.cons_append, getPointsGo_cons]
    rw [endsNumber_of_cont h.1]
    simp only [Bool.false_eq_true, if_false]
    rw [ih _ _ h.2]
    have : ((c :: cs).getLast?).getD lr = (cs.getLast?).getD c := by
      cases cs with
      | nil => rfl
      | cons d ds =>
        rw [List.getLast?_cons_cons]
        cases h : (d :: ds).getLast? with
        | none => simp at h
        | some x => rfl
    rw [this]
    simp

theorem endsNumber_sep {lr c : Char} (h : Spec.IsSep c) : endsNumber lr c = true := by
  obtain ⟨h1, h2, h3, h4⟩ := h
  simp [endsNumber, h1, h2, h3, h4]

theorem scan_seps {s : Str} (rest : Str) : ∀ lr : Char, (∀ c ∈ s, Spec.IsSep c) →
    (getPointsGo none lr (s ++ rest) : PM F Unit) = getPointsGo none (s.getLast?.getD lr) rest := by
  induction s with
  | nil => intro lr _; simp
  | cons c cs ih =>
    intro lr h
    have hc := h c List.mem_cons_self
    rw [List.cons_append, getPointsGo_cons]
    rw [endsNumber_sep hc]
    simp only [if_true]
    have hm : ¬ c = '-' := hc.2.2.1
    simp only [hm, if_false]
    have : ((c :: cs).getLast?).getD lr = (cs.getLast?).getD c := by
      cases cs with
      | nil => rfl
      | cons d ds =>
        rw [List.getLast?_cons_cons]
        cases h : (d :: ds).getLast? with
        | none => simp at h
        | some x => rfl
    rw [this, ← ih c fun d hd => h d (List.mem_cons_of_mem _ hd)]
    rfl

/-! ### Runs: what stands between separators (or minus signs) -/

/-- A run: an optional minus and characters that continue a number. -/
structure Run where
  neg : Bool
  body : Str

def Run.text (r : Run) : Str := (if r.neg then ['-'] else []) ++ r.body

/-- A run is not empty, and can be followed directly by a minus sign. -/
structure Run.WF (r : Run) : Prop where
  cont : ∀ lr, lr ≠ 'e' → Cont lr r.body
  ne : r.body ≠ []
  no_e : r.body.getLast? ≠ some 'e'

def runsText (items : List (Str × Run)) (last : Str) : Str := items.flatMap (fun i => i.1 ++ i.2.text) ++ last

def RunsWF (items : List (Str × Run)) : Prop :=
  (∀ i ∈ items, i.2.WF ∧ ∀ c ∈ i.1, Spec.IsSep c) ∧ ∀ i ∈ items.tail, i.1 ≠ [] ∨ i.2.neg = true

theorem sm_pure_bind {σ α β : Type} (a : α) (f : α → SM σ β) : ((Pure.pure a : SM σ α) >>= f) = f a := rfl

theorem sm_bind_assoc {σ α β γ : Type} (m : SM σ α) (f : α → SM σ β) (g : β → SM σ γ) :
    (m >>= f) >>= g = m >>= fun a => f a >>= g := by
  funext s
  simp only [SM.bind_run]
  rcases m s with ⟨r, s'⟩
  cases r <;> rfl

theorem sm_bind_pure {σ : Type} (m : SM σ Unit) : (m >>= fun _ => (Pure.pure () : SM σ Unit)) = m := by
  funext s
  simp only [SM.bind_run]
  rcases m s with ⟨r, s'⟩
  cases r <;> rfl

theorem flush_seps {s : Str} (rest : Str) (cur : Option Str) (lr : Char) (hs : ∀ c ∈ s, Spec.IsSep c) (hne : s ≠ []) :
    (getPointsGo cur lr (s ++ rest) : PM F Unit) = (do flush cur; getPointsGo none (s.getLast?.getD lr) rest) := by
  cases s with
  | nil => exact absurd rfl hne
  | cons c cs =>
    have hc := hs c List.mem_cons_self
    rw [List.cons_append, getPointsGo_cons, endsNumber_sep hc]
    have hm : ¬ c = '-' := hc.2.2.1
    simp only [if_true, hm, if_false]
    have h2 := scan_seps (F := F) (s := cs) rest c fun d hd => hs d (List.mem_cons_of_mem _ hd)
    rw [h2]
    have : ((c :: cs).getLast?).getD lr = (cs.getLast?).getD c := by
      cases cs with
      | nil => rfl
      | cons d ds =>
        rw [List.getLast?_cons_cons]
        cases h : (d :: ds).getLast? with
        | none => simp at h
        | some x => rfl
    rw [this]

/-- Starting a run at rest. -/
theorem start_run (r : Run) (h : r.WF) (rest : Str) (lr : Char) (hlr : lr ≠ 'e') :
    (getPointsGo none lr (r.text ++ rest) : PM F Unit) = getPointsGo (some r.text) (r.body.getLast?.getD lr) rest := by
  obtain ⟨neg, body⟩ := r
  cases neg with
  | true =>
    have e : endsNumber lr '-' = true := by
      have : GoEnv.isNumber '-' = false := by rw [GoEnv.isNumber_ascii _ (by decide)]; decide
      simp [endsNumber, this, hlr]
    simp only [Run.text, if_true, List.append_assoc, List.singleton_append]
    rw [List.cons_append, getPointsGo_cons, e]
    simp only [if_true, flush, sm_pure_bind]
    rw [scan_cont rest ['-'] '-' (h.cont '-' (by decide))]
    have hne := h.ne
    cases hb : body.getLast? with
    | none => simp at hb; exact absurd hb hne
    | some x => simp
  | false =>
    simp only [Run.text, Bool.false_eq_true, if_false, List.nil_append]
    cases body with
    | nil => exact absurd rfl h.ne
    | cons c cs =>
      have hc := h.cont lr hlr
      rw [List.cons_append, getPointsGo_cons, endsNumber_of_cont hc.1]
      simp only [Bool.false_eq_true, if_false, Option.getD_none, List.nil_append]
      rw [scan_cont rest [c] c hc.2]
      congr 1
      cases cs with
      | nil => rfl
      | cons d ds =>
        rw [List.getLast?_cons_cons]
        cases h : (d :: ds).getLast? with
        | none => simp at h
        | some x => rfl

/-- Starting a run with a minus sign right after another run. -/
theorem next_run (r : Run) (h : r.WF) (hneg : r.neg = true) (cur : Str) (rest : Str) (lr : Char) (hlr : lr ≠ 'e') :
    (getPointsGo (some cur) lr (r.text ++ rest) : PM F Unit)
      = (do readFloat cur; getPointsGo (some r.text) (r.body.getLast?.getD lr) rest) := by
  obtain ⟨neg, body⟩ := r
  simp only at hneg
  subst hneg
  have e : endsNumber lr '-' = true := by
    have : GoEnv.isNumber '-' = false := by rw [GoEnv.isNumber_ascii _ (by decide)]; decide
    simp [endsNumber, this, hlr]
  simp only [Run.text, if_true, List.append_assoc, List.singleton_append]
  rw [List.cons_append, getPointsGo_cons, e]
  simp only [if_true, flush]
  rw [scan_cont rest ['-'] '-' (h.cont '-' (by decide))]
  have hne := h.ne
  cases hb : body.getLast? with
  | none => simp at hb; exact absurd hb hne
  | some x => simp

theorem last_ne_e {r : Run} (h : r.WF) (lr : Char) : r.body.getLast?.getD lr ≠ 'e' := by
  cases hb : r.body.getLast? with
  | none => simp at hb; exact absurd hb h.ne
  | some x =>
    simp only [Option.getD_some]
    intro e; subst e; exact h.no_e hb

theorem scan_runs : ∀ (items : List (Str × Run)) (last : Str) (cur : Option Str) (lr : Char),
    (∀ i ∈ items, i.2.WF ∧ ∀ c ∈ i.1, Spec.IsSep c) → (∀ c ∈ last, Spec.IsSep c) →
    (∀ i ∈ (if cur.isSome then items else items.tail), i.1 ≠ [] ∨ i.2.neg = true) → lr ≠ 'e' →
    (getPointsGo cur lr (runsText items last) : PM F Unit)
      = (do flush cur; forEach readFloat (items.map fun i => i.2.text)) := by
  intro items
  induction items with
  | nil =>
    intro last cur lr _ hlast _ hlr
    simp only [runsText, List.flatMap_nil, List.nil_append, List.map_nil, forEach]
    cases hl : last with
    | nil =>
      cases cur with
      | none => rfl
      | some s => rw [getPointsGo_nil, sm_bind_pure]
    | cons c cs =>
      rw [hl] at hlast
      have := flush_seps (F := F) (s := c :: cs) [] cur lr hlast (by simp)
      rw [List.append_nil] at this
      rw [this]; rfl
  | cons i items ih =>
    intro last cur lr hwf hlast hsep hlr
    obtain ⟨sep, r⟩ := i
    have hr := (hwf (sep, r) List.mem_cons_self).1
    have hs := (hwf (sep, r) List.mem_cons_self).2
    have hrest := fun j hj => hwf j (List.mem_cons_of_mem _ hj)
    have etext : runsText ((sep, r) :: items) last = sep ++ (r.text ++ runsText items last) := by
      simp [runsText]
    have hcont := fun lr' h => ih last (some r.text) lr' hrest hlast
      (by
        intro j hj
        simp only [Option.isSome_some, if_true] at hj
        apply hsep
        cases cur <;> simp [hj]) h
    rw [etext]
    by_cases hse : sep = []
    · subst hse
      simp only [List.nil_append]
      cases cur with
      | none =>
        rw [start_run r hr _ lr hlr, hcont _ (last_ne_e hr lr)]
        rfl
      | some s =>
        have hneg : r.neg = true := by
          have := hsep ([], r) (by simp)
          simpa using this
        rw [next_run r hr hneg s _ lr hlr, hcont _ (last_ne_e hr lr)]
        rfl
    · rw [flush_seps _ cur lr hs hse]
      have hl' : sep.getLast?.getD lr ≠ 'e' := by
        cases hb : sep.getLast? with
        | none => simp at hb; exact absurd hb hse
        | some x => exact (hs x (List.mem_of_mem_getLast? hb)).2.2.2
      rw [start_run r hr _ _ hl', hcont _ (last_ne_e hr _)]
      rfl

/-! ### What `forEach pushFloat` does -/

theorem readAll_append {ts us : List Str} : (Spec.readAll (ts ++ us) : Option (List F)) =
    match (Spec.readAll ts : Option (List F)), (Spec.readAll us : Option (List F)) with
    | some a, some b => some (a ++ b)
    | _, _ => none := by
  induction ts with
  | nil => simp only [List.nil_append, Spec.readAll]; cases (Spec.readAll us : Option (List F)) <;> rfl
  | cons t ts ih =>
    simp only [List.cons_append, Spec.readAll, ih]
    cases (GoFloat.parse t : Option F) <;> cases (Spec.readAll ts : Option (List F)) <;>
      cases (Spec.readAll us : Option (List F)) <;> rfl

theorem pushAll (ts : List Str) (hts : ∀ t ∈ ts, ∀ c ∈ t, NumChar c) : ∀ c : PathCursor F,
    (∀ ps, Spec.readAll ts = some ps →
      forEach pushFloat ts c = (.ok (), { c with points := c.points ++ ps.map (· *. num 1) })) ∧
    (Spec.readAll (F := F) ts = none →
      ∃ qs, forEach pushFloat ts c = (.err .badFloat, { c with points := qs })) := by
  induction ts with
  | nil =>
    intro c
    constructor
    · intro ps h
      simp only [Spec.readAll, Option.some.injEq] at h
      subst h
      simp [forEach]
    · intro h; simp [Spec.readAll] at h
  | cons t ts ih =>
    intro c
    have ht := hts t List.mem_cons_self
    have ih := ih fun u hu => hts u (List.mem_cons_of_mem _ hu)
    simp only [Spec.readAll, forEach, SM.bind_run, pushFloat, SM.lift_run]
    rw [parseBasicFloat_plain ht]
    cases hv : (GoFloat.parse t : Option F) with
    | none => exact ⟨by intro ps h; simp at h, fun _ => ⟨c.points, rfl⟩⟩
    | some v =>
      simp only [SM.modify_run]
      constructor
      · intro ps h
        cases hr : (Spec.readAll ts : Option (List F)) with
        | none => simp [hr] at h
        | some qs =>
          simp only [hr, Option.some.injEq] at h
          subst h
          rw [(ih _).1 qs hr]
          simp
      · intro h
        cases hr : (Spec.readAll ts : Option (List F)) with
        | none => obtain ⟨qs, hq⟩ := (ih _).2 hr; exact ⟨qs, hq⟩
        | some qs => simp [hr] at h

theorem forEach_append {σ α : Type} (f : α → SM σ Unit) (xs ys : List α) :
    forEach f (xs ++ ys) = (do forEach f xs; forEach f ys) := by
  induction xs with
  | nil => rfl
  | cons x xs ih => simp only [List.cons_append, forEach, ih, sm_bind_assoc]

theorem forEach_flatMap {σ α β : Type} (f : α → SM σ Unit) (g : β → List α) (xs : List β) :
    forEach f (xs.flatMap g) = forEach (fun x => forEach f (g x)) xs := by
  induction xs with
  | nil => rfl
  | cons x xs ih => simp only [List.flatMap_cons, forEach_append, forEach, ih]

/-- Reading a list of runs: the texts of each run, cut before every second point. -/
theorem getPoints_runs (items : List (Str × Run)) (last : Str) (h : RunsWF items) (hlast : ∀ c ∈ last, Spec.IsSep c) :
    (getPoints (runsText items last) : PM F Unit)
      = (do modify (fun c => { c with points := [] })
            forEach pushFloat (items.flatMap fun i => pointPieces [] true i.2.text)) := by
  unfold getPoints
  rw [scan_runs items last none ' ' h.1 hlast h.2 (by decide)]
  rw [forEach_flatMap]
  have : ∀ l : List (Str × Run), (forEach readFloat (l.map fun i => i.2.text) : PM F Unit)
      = forEach (fun i => forEach pushFloat (pointPieces [] true i.2.text)) l := by
    intro l
    induction l with
    | nil => rfl
    | cons x xs ih => simp only [List.map_cons, forEach, ih, readFloat, readFloatGo_eq]
  rw [this]; rfl

end GoSvg
