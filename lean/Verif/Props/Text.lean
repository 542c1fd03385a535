import Verif.Props.PathData
import Verif.Props.Numbers
import Verif.Model.PathString

/-! C56: the textual form of a path. -/

set_option linter.unusedSectionVars false

namespace GoSvg

open Spec

variable [GoEnv]

/-! ### Decimal texts -/

theorem digitChar_val {d : Nat} (h : d < 10) : natVal [Nat.digitChar d] = d := by
  show 0 * 10 + ((Nat.digitChar d).toNat - 48) = d
  rw [Nat.toNat_digitChar_of_lt_ten h]
  omega

theorem natVal_decimal (n : Nat) : natVal (decimal n) = n := by
  induction n using Nat.strongRecOn with
  | ind n ih =>
    unfold decimal at *
    rw [Nat.toDigits_eq_if (by decide)]
    split
    · rename_i h; exact digitChar_val h
    · rename_i h
      rw [natVal_append, ih (n / 10) (by omega), digitChar_val (Nat.mod_lt _ (by decide))]
      simp only [List.length_singleton]
      omega

theorem decimal_digits (n : Nat) : Digits (decimal n) := fun _ hc => Nat.isDigit_of_mem_toDigits (by decide) (by decide) hc

theorem three_val (n : Nat) (h : n < 1000) : natVal (threeDigits n) = n := by
  have : threeDigits n = [Nat.digitChar (n / 100 % 10)] ++ ([Nat.digitChar (n / 10 % 10)] ++ [Nat.digitChar (n % 10)]) := rfl
  rw [this, natVal_append, natVal_append, digitChar_val (Nat.mod_lt _ (by decide)), digitChar_val (Nat.mod_lt _ (by decide)),
    digitChar_val (Nat.mod_lt _ (by decide))]
  simp only [List.length_append, List.length_singleton]
  omega

theorem three_digits (n : Nat) : Digits (threeDigits n) := by
  intro c hc
  simp only [threeDigits, List.mem_cons, List.not_mem_nil, or_false] at hc
  rcases hc with rfl | rfl | rfl <;> rw [Nat.isDigit_digitChar] <;> exact decide_eq_true (Nat.mod_lt _ (by decide))

/-- The thousandths printed for a number of 1/64. -/
def thousandths (n : Int) : Nat := roundShift ((f32Int n).natAbs * 125) 3

/-- The spelling printed. -/
def fixSpelling (n : Int) : Spelling :=
  ⟨decide (f32Int n < 0), decimal (thousandths n / 1000), some (threeDigits (thousandths n % 1000)), none⟩

theorem fixSpelling_text (n : Int) : (fixSpelling n).text = fmtFix n := by
  unfold fixSpelling Spelling.text Spelling.body fmtFix thousandths
  simp only [decide_eq_true_eq, List.append_nil]
  rw [List.append_assoc]

theorem fixSpelling_wf (n : Int) : (fixSpelling n).WF where
  ip := decimal_digits _
  frac := by intro f hf; simp only [fixSpelling, Option.some.injEq] at hf; subst hf; exact three_digits _
  some_digit := .inl Nat.toDigits_ne_nil
  exp := by intro s d h; simp [fixSpelling] at h

theorem fixSpelling_value (n : Int) :
    (fixSpelling n).value = (if f32Int n < 0 then -1 else 1) * ((thousandths n : ℚ) / 1000) := by
  unfold Spelling.value Spelling.absValue fixSpelling
  have e : (natVal (decimal (thousandths n / 1000)) : ℚ) + (natVal (threeDigits (thousandths n % 1000)) : ℚ) / ((10 ^ 3 : Nat) : ℚ) =
      (thousandths n : ℚ) / 1000 := by
    rw [natVal_decimal, three_val _ (Nat.mod_lt _ (by decide))]
    have h : (thousandths n : ℚ) = ((1000 * (thousandths n / 1000) + thousandths n % 1000 : ℕ) : ℚ) := by rw [Nat.div_add_mod]
    rw [h]
    push_cast
    field_simp
  dsimp only
  simp only [mul_one, decide_eq_true_eq]
  have hl : (threeDigits (thousandths n % 1000)).length = 3 := rfl
  rw [hl, e]
  split <;> ring

theorem f32Int_small {n : Int} (h : n.natAbs < 2 ^ 24) : f32Int n = n := by
  unfold f32Int f32Nat
  rw [if_pos h]
  split <;> omega

theorem roundShift_near (m : Nat) : 8 * roundShift m 3 ≤ m + 4 ∧ m ≤ 8 * roundShift m 3 + 4 := by
  unfold roundShift
  dsimp only
  split <;> omega

/-- Printing and reading a coordinate gives it back or moves it one 1/64 toward zero. -/
theorem fix_near {n : Int} (h : n.natAbs < 2 ^ 24) :
    ((toFix ((fixSpelling n).value : ℝ) : ℤ) - n).natAbs ≤ 1 ∧ (toFix ((fixSpelling n).value : ℝ) : ℤ).natAbs ≤ n.natAbs := by
  have hv := fixSpelling_value n
  unfold thousandths at hv
  rw [f32Int_small h] at hv
  obtain ⟨h1, h2⟩ := roundShift_near (n.natAbs * 125)
  generalize roundShift (n.natAbs * 125) 3 = t at *
  have h1' : (8 * t : ℝ) ≤ n.natAbs * 125 + 4 := by exact_mod_cast h1
  have h2' : (n.natAbs * 125 : ℝ) ≤ 8 * t + 4 := by exact_mod_cast h2
  have hb : (n.natAbs : ℝ) < 2 ^ 24 := by exact_mod_cast h
  have ht0 : (0 : ℝ) ≤ t := Nat.cast_nonneg t
  rw [hv]
  by_cases hn : n < 0
  · rw [if_pos hn]
    have hnn : (n.natAbs : ℝ) = -(n : ℝ) := by
      have : ((n.natAbs : ℤ) : ℝ) = ((-n : ℤ) : ℝ) := congrArg _ (by omega)
      simpa only [Int.cast_natCast, Int.cast_neg] using this
    rw [hnn] at h1' h2' hb
    push_cast
    have hr : InFixRange (-1 * ((t : ℝ) / 1000)) := by
      constructor <;> norm_num <;> linarith
    have ht := (C05_quantised _ hr).1
    have hneg : -1 * ((t : ℝ) / 1000) * 64 < 0 := by
      have : (n : ℝ) ≤ -1 := by exact_mod_cast (by omega : n ≤ -1)
      nlinarith
    obtain ⟨h3, h4⟩ := ht.2 hneg
    generalize toFix (-1 * ((t : ℝ) / 1000)) = z at *
    have e1 : (n : ℝ) - 1 < z := by linarith
    have e2 : (z : ℝ) < n + 2 := by linarith
    have e3 : n - 1 < z := by exact_mod_cast e1
    have e4 : z < n + 2 := by exact_mod_cast e2
    have e5 : (z : ℝ) < 1 := by linarith
    have e6 : z < 1 := by exact_mod_cast e5
    omega
  · rw [if_neg hn]
    have hnn : (n.natAbs : ℝ) = (n : ℝ) := by
      have : ((n.natAbs : ℤ) : ℝ) = ((n : ℤ) : ℝ) := congrArg _ (by omega)
      simpa only [Int.cast_natCast, Int.cast_neg] using this
    rw [hnn] at h1' h2' hb
    push_cast
    have hr : InFixRange (1 * ((t : ℝ) / 1000)) := by
      constructor <;> norm_num <;> linarith
    have ht := (C05_quantised _ hr).1
    obtain ⟨h3, h4⟩ := ht.1 (by positivity)
    generalize toFix (1 * ((t : ℝ) / 1000)) = z at *
    have e1 : (n : ℝ) - 2 < z := by linarith
    have e2 : (z : ℝ) < n + 1 := by linarith
    have e3 : n - 2 < z := by exact_mod_cast e1
    have e4 : z < n + 1 := by exact_mod_cast e2
    have e5 : (-1 : ℝ) < z := by linarith
    have e6 : -1 < z := by exact_mod_cast e5
    omega

/-! ### Paths -/

/-- The command an operation is printed as; a cubic is not printed as a command, see `C56_cubic_false`. -/
noncomputable def Op.cmd : Op → Cmd ℝ
  | .moveTo p => .move false ((fixSpelling p.x).value, (fixSpelling p.y).value) []
  | .lineTo p => .line false ((fixSpelling p.x).value, (fixSpelling p.y).value) []
  | .quadTo p q => .quad false (((fixSpelling p.x).value, (fixSpelling p.y).value), ((fixSpelling q.x).value, (fixSpelling q.y).value)) []
  | .cubicTo p q r => .cubic false (((fixSpelling p.x).value, (fixSpelling p.y).value), ((fixSpelling q.x).value, (fixSpelling q.y).value),
      ((fixSpelling r.x).value, (fixSpelling r.y).value)) []
  | .close => .close false

/-- the numbers of an operation -/
def Op.coords : Op → List Int
  | .moveTo p => [p.x, p.y]
  | .lineTo p => [p.x, p.y]
  | .quadTo p q => [p.x, p.y, q.x, q.y]
  | .cubicTo p q r => [p.x, p.y, q.x, q.y, r.x, r.y]
  | .close => []

def Op.isCubic : Op → Bool
  | .cubicTo .. => true
  | _ => false

theorem sep_ascii {c : Char} (h1 : c.toNat < 128) (h2 : c.isAlpha = false) (h3 : c.isDigit = false) (h4 : c ≠ '.' ∧ c ≠ '-' ∧ c ≠ 'e') :
    PathSep c := ⟨⟨by rw [GoEnv.isNumber_ascii _ h1, h3], h4⟩, by rw [GoEnv.isLetter_ascii _ h1, h2]⟩

theorem sep_comma : PathSep ',' := sep_ascii (by decide) (by decide) (by decide) (by decide)
theorem sep_space : PathSep ' ' := sep_ascii (by decide) (by decide) (by decide) (by decide)

/-- The layout of the numbers printed: commas between them, `last` behind. -/
def printed (ns : List Int) (last : Str) : GroupList :=
  ⟨(ns.zipIdx).map fun n => (if n.2 = 0 then [] else [','], ⟨fixSpelling n.1, []⟩), last⟩

theorem printed_numbers (ns : List Int) (last : Str) : (printed ns last).numbers = ns.map fixSpelling := by
  have key : ∀ (ns : List Int) k, ((ns.zipIdx k).map fun n => ((if n.2 = 0 then [] else [','] : Str), (⟨fixSpelling n.1, []⟩ : Group))).flatMap
      (fun i => i.2.numbers) = ns.map fixSpelling := by
    intro ns
    induction ns with
    | nil => intro k; rfl
    | cons n ns ih => intro k; rw [List.zipIdx_cons, List.map_cons, List.flatMap_cons, ih]; rfl
  exact key ns 0

theorem printed_wf (ns : List Int) (last : Str) (hl : ∀ c ∈ last, PathSep c) :
    (printed ns last).WF ∧ (∀ c ∈ (printed ns last).last, PathSep c) ∧ ∀ i ∈ (printed ns last).items, ∀ c ∈ i.1, PathSep c := by
  have hi : ∀ i ∈ (printed ns last).items, i.2.WF ∧ ∀ c ∈ i.1, PathSep c := by
    intro i hi
    obtain ⟨n, -, rfl⟩ := List.mem_map.1 hi
    refine ⟨⟨fixSpelling_wf _, by simp, by simp⟩, fun c hc => ?_⟩
    split at hc
    · simp at hc
    · rw [List.mem_singleton.1 hc]; exact sep_comma
  refine ⟨⟨fun c hc => (hl c hc).1, fun i h => ⟨(hi i h).1, fun c hc => ((hi i h).2 c hc).1⟩, ?_⟩, hl, fun i h => (hi i h).2⟩
  intro i h
  left
  cases ns with
  | nil => simp [printed] at h
  | cons n ns =>
    simp only [printed, List.zipIdx_cons, List.map_cons, List.tail_cons] at h
    obtain ⟨m, hm, rfl⟩ := List.mem_map.1 h
    have := List.le_snd_of_mem_zipIdx hm
    dsimp only
    rw [if_neg (by omega)]
    simp

theorem written_op {op : Op} (h : op.isCubic = false) {last : Str} (hl : ∀ c ∈ last, PathSep c) : WrittenExactly op.cmd (op.toStr ++ last) := by
  obtain ⟨h1, h2, h3⟩ := printed_wf op.coords last hl
  refine ⟨printed op.coords last, ?_, h1, h2, h3, ?_⟩
  · cases op with
    | cubicTo p q r => exact nomatch h
    | _ => simp [printed, Op.coords, GroupList.text, Group.text, Group.numbers, fixSpelling_text, Op.toStr, Op.cmd, Cmd.letter, List.zipIdx]
  · rw [printed_numbers]
    cases op with
    | cubicTo p q r => exact nomatch h
    | _ => rfl

/-- The segments of the text of a path. -/
def textsOf : Path → List Str
  | [] => []
  | [op] => [op.toStr]
  | op :: op' :: ops => (op.toStr ++ [' ']) :: textsOf (op' :: ops)

theorem textsOf_flatten : ∀ p : Path, toSVGPath p = (textsOf p).flatten
  | [] => rfl
  | [op] => by simp [toSVGPath, textsOf, List.intercalate]
  | op :: op' :: ops => by
    have ih := textsOf_flatten (op' :: ops)
    unfold toSVGPath at *
    rw [textsOf, List.flatten_cons, ← ih]
    simp [List.intercalate]

theorem textsOf_written : ∀ p : Path, (∀ op ∈ p, op.isCubic = false) → List.Forall₂ WrittenExactly (p.map Op.cmd) (textsOf p)
  | [], _ => .nil
  | [op], h => .cons (by simpa using written_op (h op (by simp)) (last := []) (by simp)) .nil
  | op :: op' :: ops, h => by
    rw [textsOf, List.map_cons]
    exact .cons (written_op (h op (by simp)) (by simpa using sep_space)) (textsOf_written (op' :: ops) fun o ho => h o (List.mem_cons_of_mem _ ho))

/-- The path begins with a move, and so does what follows a close. -/
def BeginsWithMoves : Bool → Path → Prop
  | _, [] => True
  | _, .moveTo _ :: ops => BeginsWithMoves true ops
  | isOpen, .close :: ops => isOpen = true ∧ BeginsWithMoves false ops
  | isOpen, _ :: ops => isOpen = true ∧ BeginsWithMoves isOpen ops

theorem starts_of_begins : ∀ (p : Path) (o : Bool), BeginsWithMoves o p → StartsWithMoves o (p.map Op.cmd)
  | [], _, _ => trivial
  | .moveTo _ :: ops, _, h => starts_of_begins ops true h
  | .close :: ops, _, h => ⟨h.1, starts_of_begins ops false h.2⟩
  | .lineTo _ :: ops, o, h => ⟨h.1, starts_of_begins ops o h.2⟩
  | .quadTo _ _ :: ops, o, h => ⟨h.1, starts_of_begins ops o h.2⟩
  | .cubicTo _ _ _ :: ops, o, h => ⟨h.1, starts_of_begins ops o h.2⟩

noncomputable def Op.gop : Op → GOp ℝ
  | .moveTo p => .moveTo ((fixSpelling p.x).value, (fixSpelling p.y).value)
  | .lineTo p => .lineTo ((fixSpelling p.x).value, (fixSpelling p.y).value)
  | .quadTo p q => .quadTo ((fixSpelling p.x).value, (fixSpelling p.y).value) ((fixSpelling q.x).value, (fixSpelling q.y).value)
  | .cubicTo p q r => .cubicTo ((fixSpelling p.x).value, (fixSpelling p.y).value) ((fixSpelling q.x).value, (fixSpelling q.y).value)
      ((fixSpelling r.x).value, (fixSpelling r.y).value)
  | .close => .close

theorem exec_ops (p : Path) : ∀ s : St ℝ, (exec s ((p.map Op.cmd).flatMap Cmd.segs)).1 = p.map Op.gop := by
  induction p with
  | nil => intro s; rfl
  | cons op p ih =>
    intro s
    rw [List.map_cons, List.flatMap_cons, List.map_cons]
    cases op <;> exact congrArg (_ :: ·) (ih _)

/-- Two coordinates at most 1/64 apart, the second not farther from zero. -/
def NearC (m n : Int) : Prop := (n - m).natAbs ≤ 1 ∧ n.natAbs ≤ m.natAbs

def NearP (p q : Pt) : Prop := NearC p.x q.x ∧ NearC p.y q.y

/-- Operations of the same kind with coordinates at most 1/64 apart. -/
inductive Near : Op → Op → Prop
  | moveTo {p p'} : NearP p p' → Near (.moveTo p) (.moveTo p')
  | lineTo {p p'} : NearP p p' → Near (.lineTo p) (.lineTo p')
  | quadTo {p p' q q'} : NearP p p' → NearP q q' → Near (.quadTo p q) (.quadTo p' q')
  | cubicTo {p p' q q' r r'} : NearP p p' → NearP q q' → NearP r r' → Near (.cubicTo p q r) (.cubicTo p' q' r')
  | close : Near .close .close

theorem near_store {op : Op} (h : ∀ n ∈ op.coords, n.natAbs < 2 ^ 24) : Near op (op.gop.store toFix 0 0) := by
  have key : ∀ n : Int, n.natAbs < 2 ^ 24 → NearC n (toFix (((fixSpelling n).value : ℝ) +. 0)) := by
    intro n hn
    rw [real_add, add_zero]
    exact fix_near hn
  cases op <;> simp only [Op.coords, List.forall_mem_cons] at h
  · exact .moveTo ⟨key _ h.1, key _ h.2.1⟩
  · exact .lineTo ⟨key _ h.1, key _ h.2.1⟩
  · exact .quadTo ⟨key _ h.1, key _ h.2.1⟩ ⟨key _ h.2.2.1, key _ h.2.2.2.1⟩
  · exact .cubicTo ⟨key _ h.1, key _ h.2.1⟩ ⟨key _ h.2.2.1, key _ h.2.2.2.1⟩ ⟨key _ h.2.2.2.2.1, key _ h.2.2.2.2.2.1⟩
  · exact .close

/-- C56 for paths without cubics, in exact arithmetic, for coordinates below 2^24 (262144 px): the text is accepted without a warning
and gives back the same operations with coordinates off by at most 1/64, never farther from zero. Missing for the full claim: cubics,
see `C56_cubic_false`; larger coordinates, see `C56_large_false`; paths that go on after a close without a move (C10). -/
theorem C56_round_trip_partial (p : Path) (hc : ∀ op ∈ p, op.isCubic = false) (hr : ∀ op ∈ p, ∀ n ∈ op.coords, n.natAbs < 2 ^ 24)
    (hm : BeginsWithMoves false p) (c : PathCursor ℝ) (hx : c.curX = 0) (hy : c.curY = 0) :
    ∃ c', compilePath (toSVGPath p) c = (.ok (), c') ∧ List.Forall₂ Near p c'.path ∧ c'.log = c.log := by
  obtain ⟨c', h1, h2, h3⟩ := C06_path_semantics_exact [] (by simp) (p.map Op.cmd) (textsOf p) (textsOf_written p hc) (starts_of_begins p false hm) c
  rw [List.nil_append, ← textsOf_flatten] at h1
  refine ⟨c', h1, ?_, h3⟩
  rw [h2, hx, hy, draw, exec_ops, List.map_map]
  clear h1 h2 hm hc
  induction p with
  | nil => exact .nil
  | cons op p ih => exact .cons (near_store (hr op List.mem_cons_self)) (ih fun o ho => hr o (List.mem_cons_of_mem _ ho))

/-! ### Cubics -/

/-- What precedes the first cubic, with a space behind each operation. -/
def spaced (p : Path) : List Str := p.map fun op => op.toStr ++ [' ']

theorem spaced_written (p : Path) (h : ∀ op ∈ p, op.isCubic = false) : List.Forall₂ WrittenExactly (p.map Op.cmd) (spaced p) := by
  induction p with
  | nil => exact .nil
  | cons op p ih =>
    exact .cons (written_op (h op List.mem_cons_self) (by simpa using sep_space)) (ih fun o ho => h o (List.mem_cons_of_mem _ ho))

theorem toSVGPath_cubic (pre post : Path) (a b d : Pt) : ∃ rest,
    toSVGPath (pre ++ .cubicTo a b d :: post) = (spaced pre).flatten ++ 'C' :: 'C' :: rest := by
  induction pre with
  | nil =>
    cases post with
    | nil => exact ⟨_, by simp only [List.nil_append, toSVGPath, List.map_cons, List.map_nil]; rfl⟩
    | cons o post => exact ⟨_, by simp only [List.nil_append, textsOf_flatten, textsOf, List.flatten_cons]; rfl⟩
  | cons op pre ih =>
    obtain ⟨rest, ih⟩ := ih
    refine ⟨rest, ?_⟩
    rw [textsOf_flatten] at ih ⊢
    have : textsOf (op :: pre ++ .cubicTo a b d :: post) = (op.toStr ++ [' ']) :: textsOf (pre ++ .cubicTo a b d :: post) := by
      cases pre <;> rfl
    rw [this, List.flatten_cons, ih]
    simp [spaced]

/-- Every text that starts at a letter is made of segments. -/
theorem segments_of : ∀ (s : Str) (k : Char) (body : Str), startsSeg k = true → (∀ c ∈ body, startsSeg c = false) →
    ∃ ts : List Str, (∀ t ∈ ts, Segment t) ∧ ts.flatten = k :: body ++ s
  | [], k, body, hk, hb => by
    refine ⟨[k :: body], ?_, by simp⟩
    intro t ht
    rw [List.mem_singleton.1 ht]
    unfold startsSeg at hk hb
    refine ⟨k, body, rfl, by simpa using hk, fun c hc => ?_⟩
    have := hb c hc
    cases h : GoEnv.isLetter c
    · exact .inl rfl
    · rw [h] at this; right; simpa using this
  | c :: s, k, body, hk, hb => by
    cases hc : startsSeg c with
    | false =>
      obtain ⟨ts, h1, h2⟩ := segments_of s k (body ++ [c]) hk (by simpa [or_imp, forall_and, hc] using hb)
      exact ⟨ts, h1, by rw [h2]; simp⟩
    | true =>
      obtain ⟨ts, h1, h2⟩ := segments_of s c [] hc (by simp)
      obtain ⟨ts', h1', h2'⟩ := segments_of [] k body hk hb
      exact ⟨ts' ++ ts, fun t ht => (List.mem_append.1 ht).elim (h1' t) (h1 t), by rw [List.flatten_append, h2, h2']; simp⟩

theorem written_segments {cs : List (Cmd ℝ)} {ts : List Str} (h : List.Forall₂ WrittenExactly cs ts) : ∀ t ∈ ts, Segment t := by
  induction h with
  | nil => simp
  | cons h1 _ ih =>
    intro t ht
    rcases List.mem_cons.1 ht with rfl | ht
    · obtain ⟨k, body, rfl, hk, hb⟩ := written_segment (written_of_exactly h1)
      unfold startsSeg at hk hb
      refine ⟨k, body, rfl, by simpa using hk, fun c hc => ?_⟩
      have := hb c hc
      cases h : GoEnv.isLetter c
      · exact .inl rfl
      · rw [h] at this; right; simpa using this
    · exact ih t ht

/-- C56 is false for every path with a cubic: its text is not accepted, in any error mode, and only what precedes the first cubic is
drawn. -/
theorem C56_cubic_false (pre post : Path) (a b d : Pt) (hp : ∀ op ∈ pre, op.isCubic = false) (hm : BeginsWithMoves false pre) (c : PathCursor ℝ) :
    ∃ c', compilePath (toSVGPath (pre ++ .cubicTo a b d :: post)) c = (.err .paramMismatch, c') ∧ c'.path.length = pre.length := by
  obtain ⟨rest, hr⟩ := toSVGPath_cubic pre post a b d
  have hw := spaced_written pre hp
  obtain ⟨c1, h1, h2, -⟩ := C06_path_semantics_exact [] (by simp) _ _ hw (starts_of_begins pre false hm) c
  obtain ⟨ts, h3, h4⟩ := segments_of rest 'C' [] (startsSeg_letter (by decide)) (by simp)
  have hC : Writes 'C' ([] : List ℝ) ['C'] := ⟨⟨[], []⟩, [], by simp [GroupList.text], by simp [GroupList.WF], by simp, by simp, rfl, rfl⟩
  obtain ⟨c2, h5, h6⟩ := (C09_parameter_count (spaced pre) ts (written_segments hw) h3 c c1 h1 'C' 6 (by decide) [] ['C'] hC).2 (by
    simp [Accepts])
  refine ⟨c2, ?_, by rw [h6, h2, draw, exec_ops]; simp⟩
  rw [hr, ← h5]
  congr 1
  simp [h4]

end GoSvg

namespace GoSvg

open Spec

section Examples

attribute [local instance] asciiEnv
attribute [local instance] dummyLibm

/-- C56 applied to a closed triangle with a curved side, with negative coordinates. -/
example (c : PathCursor ℝ) (hx : c.curX = 0) (hy : c.curY = 0) :
    ∃ c', compilePath "M0.016,-1.500 Q2.000,0.000,3.016,4.031 L-5.000,6.000 Z".toList c = (.ok (), c') ∧
      List.Forall₂ Near [.moveTo ⟨1, -96⟩, .quadTo ⟨128, 0⟩ ⟨193, 258⟩, .lineTo ⟨-320, 384⟩, .close] c'.path ∧ c'.log = c.log := by
  have e : toSVGPath [.moveTo ⟨1, -96⟩, .quadTo ⟨128, 0⟩ ⟨193, 258⟩, .lineTo ⟨-320, 384⟩, .close] =
      "M0.016,-1.500 Q2.000,0.000,3.016,4.031 L-5.000,6.000 Z".toList := by decide +kernel
  rw [← e]
  exact C56_round_trip_partial _ (by decide) (by decide) (by simp [BeginsWithMoves]) c hx hy

/-- C56 is false for large coordinates: 2^26 + 5 is printed like 2^26 + 8. -/
theorem C56_large_false : toSVGPath [.moveTo ⟨2 ^ 26 + 5, 0⟩] = "M1048576.125,0.000".toList ∧
    (compilePath "M1048576.125,0.000".toList (freshPath .strict)).2.path = [.moveTo ⟨2 ^ 26 + 8, 0⟩] := by decide +kernel

end Examples

end GoSvg
