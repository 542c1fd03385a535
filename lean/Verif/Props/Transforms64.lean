import Verif.Lemmas.MatrixError
import Verif.Props.Transformed
import Verif.Props.Ellipse64

/-! C82: transforms in binary64. -/

namespace GoSvg.Spec

/-- Scale factors, entries of the linear part of up to `2^b` and shifts of up to `2^c`; rotations of up to a full turn, skews of up to 45 degrees. -/
def Fn.Sized (b c : Nat) : Fn → Prop
  | .translate x y => |x| ≤ 2 ^ c ∧ |y| ≤ 2 ^ c
  | .scale x y => |x| ≤ 2 ^ b ∧ |y| ≤ 2 ^ b
  | .rotate a => |a| ≤ 360
  | .rotateAbout a x y => |a| ≤ 360 ∧ |x| ≤ 2 ^ c ∧ |y| ≤ 2 ^ c
  | .skewX a => |a| ≤ 45
  | .skewY a => |a| ≤ 45
  | .matrix m => (∀ r ∈ [m.a, m.b, m.c, m.d], |r| ≤ 2 ^ b) ∧ ∀ r ∈ [m.e, m.f], |r| ≤ 2 ^ c

/-- The number of elementary transforms. -/
def Fn.count : Fn → Nat
  | .rotateAbout _ _ _ => 3
  | _ => 1

def countAll (fs : List Fn) : Nat := (fs.map Fn.count).sum

/-- As `TransformedBy`, with `n` elementary transforms on the way, all of them of the size `b`, `c`. -/
inductive TransformedUpTo [GoEnv] (b c : Nat) : List Elem → Nat → (P2 → P2) → Prop
  | root : TransformedUpTo b c [] 0 id
  | plain {e ch n T} : (∀ d ∈ declared e.attrs, d.1 ≠ "transform".toList) → TransformedUpTo b c ch n T → TransformedUpTo b c (e :: ch) n T
  | list {e : Elem} {ch} {n} {l : List (FnText ℝ)} {fs} : TransformedUpTo b c ch n id → (∀ t ∈ l, t.WF) → MeansList l fs → ReadRight l →
      (∀ f ∈ fs, f.Sized b c) → LastDecl e.attrs "transform" (listText l []) → TransformedUpTo b c (e :: ch) (n + countAll fs) (applyList fs)
  | one {e : Elem} {ch n T} {t : FnText ℝ} {f : Fn} : TransformedUpTo b c ch n T → t.WF → Means t.name t.nums f → Basic t → f.Sized b c →
      LastDecl e.attrs "transform" t.text → (∀ M : Matrix2D ℝ, (∀ p, affine M p = T p) → Composes M f) →
      TransformedUpTo b c (e :: ch) (n + f.count) (T ∘ f.apply)

/-- The view box and the target are the numbers `V`, `X`, `Y`, `W`, `H`; scaling by at most `2^b` and shifting by at most `2^c`. -/
structure SizedTarget (b c : Nat) (vb : Bounds F64) (x y w h : F64) (V : Bounds ℝ) (X Y W H : ℝ) : Prop where
  box : ∃ vx vy vw vh : ℚ, (Is vb.x vx ∧ Is vb.y vy ∧ Is vb.w vw ∧ Is vb.h vh) ∧ V = ⟨vx, vy, vw, vh⟩
  target : ∃ x' y' w' h' : ℚ, (Is x x' ∧ Is y y' ∧ Is w w' ∧ Is h h') ∧ (X = x' ∧ Y = y' ∧ W = w' ∧ H = h')
  scale : |W / V.w| ≤ 2 ^ b ∧ |H / V.h| ≤ 2 ^ b
  shift : ∃ k, k + b ≤ c ∧ |X - V.x| ≤ 2 ^ k ∧ |Y - V.y| ≤ 2 ^ k

end GoSvg.Spec

namespace GoSvg

open Spec F64

variable [Libm]

/-- A number as it is read: rounded once. -/
def Rounded (x : F64) (r : ℝ) : Prop := ∀ k ≤ 52, |r| ≤ 2 ^ k → Near (2 ^ k / 2 ^ 54) x r

theorem readAll_rounded [GoEnv] : ∀ (ns : List Spelling), (∀ n ∈ ns, n.WF) → (∀ n ∈ ns, |(n.value : ℝ)| ≤ 2 ^ 52) →
    ∃ vs : List F64, readAll (ns.map Spelling.text) = some vs ∧ List.Forall₂ Rounded (vs.map (· *. num 1)) (ns.map fun n => (n.value : ℝ))
  | [], _, _ => ⟨[], rfl, .nil⟩
  | n :: ns, hw, hg => by
    obtain ⟨vs, h1, h2⟩ := readAll_rounded ns (fun m hm => hw m (List.mem_cons_of_mem _ hm)) (fun m hm => hg m (List.mem_cons_of_mem _ hm))
    have hb := hg n List.mem_cons_self
    have hb' : |n.value| ≤ 2 ^ 52 := by exact_mod_cast hb
    obtain ⟨x, hx, p, hI, hn⟩ := parse_nearest (hw n List.mem_cons_self) (by rw [← abs_value]; exact pow_bound le_rfl hb')
    refine ⟨x :: vs, ?_, ?_⟩
    · simp only [List.map_cons, readAll, hx, h1]
    · refine .cons (fun k hk hr => ?_) h2
      have := near_round (d := 0) (r := (n.value : ℝ)) (x := x *. num 1) ⟨p, is_mul_one hI, hn⟩ (by simp) hk (by simpa using hr)
      rwa [zero_add] at this

/-- The function as it is read in binary64. -/
theorem fn_rounded [GoEnv] {t : FnText ℝ} (h : t.WF) (hb : ∀ r ∈ t.nums, |r| ≤ 2 ^ 52) :
    ∃ t' : FnText F64, t'.WF ∧ t'.text = t.text ∧ t'.name = t.name ∧ List.Forall₂ Rounded t'.nums t.nums := by
  obtain ⟨pre, name, mid, args, post, nums⟩ := t
  obtain ⟨l, vs, h1, h2, h3, h4⟩ := h.nums
  dsimp only at h1 h4 hb
  have hw := groupList_numbers_wf h2
  rw [readAll_real _ hw, Option.some.injEq] at h3
  have h4' : nums = l.numbers.map fun n => (n.value : ℝ) := by
    rw [h4, ← h3, List.map_map]
    apply List.map_congr_left
    intro n _
    show (n.value : ℝ) * ((1 : ℚ) : ℝ) = _
    simp
  obtain ⟨ws, r1, r2⟩ := readAll_rounded l.numbers hw (by
    intro n hn
    exact hb _ (h4' ▸ List.mem_map.2 ⟨n, hn, rfl⟩))
  refine ⟨⟨pre, name, mid, args, post, ws.map (· *. num 1)⟩, ⟨h.pre, h.mid, h.post, h.name, h.letters, h.nonempty, h.no_paren, h.last, ⟨l, ws, h1, h2, r1, rfl⟩⟩,
    rfl, rfl, ?_⟩
  show List.Forall₂ Rounded _ nums
  rw [h4']
  exact r2

/-- The matrix after `n` elementary transforms. -/
def Steps (b c n : Nat) (m : Matrix2D F64) (M : Matrix2D ℝ) : Prop := MatRel (n / 2 ^ 45) (n * (b + 1)) (c + n * (b + 2)) m M

omit [Libm] in
theorem steps_small {b c n : Nat} (hn : c + (n + 1) * (b + 2) ≤ 48) : n ≤ 23 := by
  by_contra h
  have : 25 * 2 ≤ (n + 1) * (b + 2) := Nat.mul_le_mul (by omega) (by omega)
  omega

omit [Libm] in
theorem eta_small {n : Nat} (h : n ≤ 23) : (0 : ℝ) ≤ n / 2 ^ 45 ∧ (n : ℝ) / 2 ^ 45 ≤ 1 / 2 ^ 7 := by
  have : (n : ℝ) ≤ 23 := by exact_mod_cast h
  refine ⟨by positivity, ?_⟩
  norm_num
  linarith

omit [Libm] in
theorem F64.MatRel.mono {η η' : ℝ} {l l' t t' : Nat} {m : Matrix2D F64} {M : Matrix2D ℝ} (h : MatRel η l t m M) (h0 : 0 ≤ η) (hη : η ≤ η') (hl : l ≤ l')
    (ht : t ≤ t') : MatRel η' l' t' m M :=
  ⟨h.a.mono h0 hη hl, h.b.mono h0 hη hl, h.c.mono h0 hη hl, h.d.mono h0 hη hl, h.e.mono h0 hη ht, h.f.mono h0 hη ht⟩

omit [Libm] in
theorem rounded_ent {x : F64} {r : ℝ} (h : Rounded x r) {k : Nat} (hk : k ≤ 52) (hr : |r| ≤ 2 ^ k) : Ent (1 / 2 ^ 46) k x r := by
  refine ⟨(h k hk hr).mono ?_, hr⟩
  have : (0 : ℝ) < 2 ^ k := by positivity
  norm_num
  linarith

omit [Libm] in
theorem exact_ent {x : F64} {q : ℚ} (h : Is x q) {k : Nat} (hq : |(q : ℝ)| ≤ 2 ^ k) : Ent (1 / 2 ^ 46) k x (q : ℝ) :=
  ⟨(near_is h).mono (by positivity), hq⟩

theorem zero_ent (k : Nat) : Ent (1 / 2 ^ 46) k (num 0 : F64) (num 0 : ℝ) := by
  have := exact_ent (k := k) (is_num (q := 0) rep_zero) (by simp)
  simpa using this

theorem one_ent (k : Nat) : Ent (1 / 2 ^ 46) k (num 1 : F64) (num 1 : ℝ) := by
  have := exact_ent (k := k) (is_num (q := 1) rep_one) (by simpa using one_le_pow₀ (by norm_num : (1 : ℝ) ≤ 2))
  simpa using this

theorem steps_mult {b c n : Nat} {m k : Matrix2D F64} {M K : Matrix2D ℝ} (hn : c + (n + 1) * (b + 2) ≤ 48) (hm : Steps b c n m M)
    (hk : MatRel (1 / 2 ^ 46) b c k K) : Steps b c (n + 1) (m.mult k) (M.mult K) := by
  obtain ⟨h0, h1⟩ := eta_small (steps_small hn)
  have e1 : (n + 1) * (b + 2) = n * (b + 2) + b + 2 := by ring
  have e2 : n * (b + 2) = n * (b + 1) + n := by ring
  have e3 : (n + 1) * (b + 1) = n * (b + 1) + b + 1 := by ring
  have := mult_rel hm hk h0 h1 (T := c + n * (b + 2) + b + 1) (by omega) (by omega) (by omega) (by omega)
  unfold Steps
  rw [e1, e3]
  refine this.mono (by positivity) (le_of_eq ?_) (by omega) (by omega)
  push_cast; ring

theorem steps_translate {b c n : Nat} {m : Matrix2D F64} {M : Matrix2D ℝ} (hn : c + (n + 1) * (b + 2) ≤ 48) (hm : Steps b c n m M) {x y : F64} {X Y : ℝ}
    (hx : Ent (1 / 2 ^ 46) c x X) (hy : Ent (1 / 2 ^ 46) c y Y) : Steps b c (n + 1) (m.translate x y) (M.translate X Y) := by
  obtain ⟨h0, h1⟩ := eta_small (steps_small hn)
  have e1 : (n + 1) * (b + 2) = n * (b + 2) + b + 2 := by ring
  have e3 : (n + 1) * (b + 1) = n * (b + 1) + b + 1 := by ring
  have := translate_rel hm h0 h1 hx hy (by omega) (by omega)
  unfold Steps
  rw [e1, e3]
  refine this.mono (by positivity) (le_of_eq ?_) (by omega) (by omega)
  push_cast; ring

theorem steps_scale {b c n : Nat} {m : Matrix2D F64} {M : Matrix2D ℝ} (hn : c + (n + 1) * (b + 2) ≤ 48) (hm : Steps b c n m M) {x y : F64} {X Y : ℝ}
    (hx : Ent (1 / 2 ^ 46) b x X) (hy : Ent (1 / 2 ^ 46) b y Y) : Steps b c (n + 1) (m.scale x y) (M.scale X Y) := by
  obtain ⟨h0, h1⟩ := eta_small (steps_small hn)
  have e1 : (n + 1) * (b + 2) = n * (b + 2) + b + 2 := by ring
  have e2 : n * (b + 2) = n * (b + 1) + n := by ring
  have e3 : (n + 1) * (b + 1) = n * (b + 1) + b + 1 := by ring
  have := scale_rel hm h0 h1 hx hy (by omega) (by omega)
  unfold Steps
  rw [e1, e3]
  refine this.mono (by positivity) (le_of_eq ?_) (by omega) (by omega)
  push_cast; ring

omit [Libm] in
theorem near_ent {x : F64} {r : ℝ} (h : Near (1 / 2 ^ 46) x r) (hr : |r| ≤ 1) (k : Nat) : Ent (1 / 2 ^ 46) k x r := by
  have : (1 : ℝ) ≤ 2 ^ k := one_le_pow₀ (by norm_num)
  refine ⟨h.mono ?_, hr.trans this⟩
  linarith [mul_le_mul_of_nonneg_left this (by positivity : (0 : ℝ) ≤ 1 / 2 ^ 46)]

theorem steps_rotate [GoEnv] (hL : Accurate) {b c n : Nat} {m : Matrix2D F64} {M : Matrix2D ℝ} (hn : c + (n + 1) * (b + 2) ≤ 48) (hm : Steps b c n m M)
    {x : F64} {a : ℝ} (hx : Rounded x a) (ha : |a| ≤ 360) :
    Steps b c (n + 1) (m.rotate (x *. GoFloat.piMul 1 /. num 180)) (M.rotate (a *. GoFloat.piMul 1 /. num 180)) := by
  obtain ⟨h1, h2⟩ := near_turned hL (hx 9 (by norm_num) (by norm_num; linarith)) ha
  refine steps_mult hn hm ?_
  rw [rad_eq]
  exact ⟨near_ent h1 (Real.abs_cos_le_one _) b, near_ent h2 (Real.abs_sin_le_one _) b,
    near_ent (near_neg h2) (by rw [abs_neg]; exact Real.abs_sin_le_one _) b, near_ent h1 (Real.abs_cos_le_one _) b, zero_ent c, zero_ent c⟩

theorem ent_neg {η : ℝ} {k : Nat} {x : F64} {r : ℝ} (h : Ent η k x r) : Ent η k (GoFloat.neg x) (-r) := ⟨near_neg h.1, by rw [abs_neg]; exact h.2⟩

/-- One function, in binary64 and in exact arithmetic. -/
theorem steps_fn [GoEnv] (hL : Accurate) {b c n : Nat} {m : Matrix2D F64} {M : Matrix2D ℝ} {name : Str} {xs : List F64} {rs : List ℝ} {f : Fn}
    (hf : Means name rs f) (hs : f.Sized b c) (hx : List.Forall₂ Rounded xs rs) (hn : c + (n + f.count) * (b + 2) ≤ 48) (hm : Steps b c n m M) :
    ∃ m' M', readTransformAttr m (name.map Char.toLower) xs = .ok m' ∧ readTransformAttr M (name.map Char.toLower) rs = .ok M' ∧
      Steps b c (n + f.count) m' M' := by
  have hc : c ≤ 52 := by omega
  have hb : b ≤ 52 := by
    have : 1 * (b + 2) ≤ (n + f.count) * (b + 2) := Nat.mul_le_mul (by cases f <;> simp only [Fn.count] <;> omega) le_rfl
    omega
  cases hf with
  | translate e =>
    rcases hx with _ | ⟨h1, _ | ⟨h2, _ | _⟩⟩
    rw [e]
    exact ⟨_, _, rfl, rfl, steps_translate hn hm (rounded_ent h1 hc hs.1) (rounded_ent h2 hc hs.2)⟩
  | translateX e =>
    rcases hx with _ | ⟨h1, _ | _⟩
    rw [e]
    exact ⟨_, _, rfl, rfl, steps_translate hn hm (rounded_ent h1 hc hs.1) (rounded_ent h1 hc hs.1)⟩
  | scale e =>
    rcases hx with _ | ⟨h1, _ | ⟨h2, _ | _⟩⟩
    rw [e]
    exact ⟨_, _, rfl, rfl, steps_scale hn hm (rounded_ent h1 hb hs.1) (rounded_ent h2 hb hs.2)⟩
  | scaleBoth e =>
    rcases hx with _ | ⟨h1, _ | _⟩
    rw [e]
    exact ⟨_, _, rfl, rfl, steps_scale hn hm (rounded_ent h1 hb hs.1) (rounded_ent h1 hb hs.1)⟩
  | rotate e =>
    rcases hx with _ | ⟨h1, _ | _⟩
    rw [e]
    exact ⟨_, _, rfl, rfl, steps_rotate hL hn hm h1 hs⟩
  | rotateAbout e =>
    rcases hx with _ | ⟨h1, _ | ⟨h2, _ | ⟨h3, _ | _⟩⟩⟩
    rw [e]
    have hn' : c + (n + 3) * (b + 2) ≤ 48 := hn
    have e1 : (n + 3) * (b + 2) = (n + 1) * (b + 2) + 2 * (b + 2) := by ring
    have e2 : (n + 3) * (b + 2) = (n + 1 + 1) * (b + 2) + (b + 2) := by ring
    have q1 := steps_translate (by omega) hm (rounded_ent h2 hc hs.2.1) (rounded_ent h3 hc hs.2.2)
    have q2 := steps_rotate hL (by omega) q1 h1 hs.1
    exact ⟨_, _, rfl, rfl, steps_translate hn' q2 (ent_neg (rounded_ent h2 hc hs.2.1)) (ent_neg (rounded_ent h3 hc hs.2.2))⟩
  | skewX e =>
    rcases hx with _ | ⟨h1, _ | _⟩
    rw [e]
    obtain ⟨t1, t2⟩ := near_skewed hL (h1 6 (by norm_num) (hs.trans (by norm_num))) hs
    refine ⟨_, _, rfl, rfl, steps_mult hn hm ?_⟩
    beta_reduce
    rw [rad_eq]
    exact ⟨one_ent b, zero_ent b, near_ent t1 t2 b, one_ent b, zero_ent c, zero_ent c⟩
  | skewY e =>
    rcases hx with _ | ⟨h1, _ | _⟩
    rw [e]
    obtain ⟨t1, t2⟩ := near_skewed hL (h1 6 (by norm_num) (hs.trans (by norm_num))) hs
    refine ⟨_, _, rfl, rfl, steps_mult hn hm ?_⟩
    beta_reduce
    rw [rad_eq]
    exact ⟨one_ent b, near_ent t1 t2 b, zero_ent b, one_ent b, zero_ent c, zero_ent c⟩
  | matrix e =>
    rcases hx with _ | ⟨h1, _ | ⟨h2, _ | ⟨h3, _ | ⟨h4, _ | ⟨h5, _ | ⟨h6, _ | _⟩⟩⟩⟩⟩⟩
    rw [e]
    obtain ⟨k1, k2⟩ := hs
    simp only [List.mem_cons, List.not_mem_nil, or_false, forall_eq_or_imp, forall_eq] at k1 k2
    exact ⟨_, _, rfl, rfl, steps_mult hn hm ⟨rounded_ent h1 hb k1.1, rounded_ent h2 hb k1.2.1, rounded_ent h3 hb k1.2.2.1, rounded_ent h4 hb k1.2.2.2,
      rounded_ent h5 hc k2.1, rounded_ent h6 hc k2.2⟩⟩

section Chain

variable [GoEnv]

/-- What is read for a list, in binary64 and in exact arithmetic; the functions in the order in which they are read. -/
theorem steps_list (hL : Accurate) {b c : Nat} {l : List (FnText ℝ)} {fs : List Fn} (hf : MeansList l fs) : ∀ {l' : List (FnText F64)},
    List.Forall₂ (fun t' t => t'.name = t.name ∧ List.Forall₂ Rounded t'.nums t.nums) l' l → (∀ f ∈ fs, f.Sized b c) → ∀ {n : Nat} {m : Matrix2D F64}
    {M : Matrix2D ℝ}, c + (n + countAll fs) * (b + 2) ≤ 48 → Steps b c n m M →
    ∃ m' M', stepAll m l' = .ok m' ∧ stepAll M l = .ok M' ∧ Steps b c (n + countAll fs) m' M' := by
  induction hf with
  | nil =>
    intro l' hl _ n m M _ hm
    cases hl
    exact ⟨m, M, rfl, rfl, hm⟩
  | @cons t f l fs h1 _ ih =>
    intro l' hl hs n m M hn hm
    cases hl with
    | @cons t' _ l' _ h h' =>
      have e : countAll (f :: fs) = f.count + countAll fs := by simp [countAll]
      rw [e, ← Nat.add_assoc] at hn ⊢
      have hle : (n + f.count) * (b + 2) ≤ (n + f.count + countAll fs) * (b + 2) := Nat.mul_le_mul (by omega) le_rfl
      obtain ⟨m1, M1, r1, r2, r3⟩ := steps_fn hL h1 (hs f List.mem_cons_self) h.2 (by omega) hm
      obtain ⟨m2, M2, q1, q2, q3⟩ := ih h' (fun g hg => hs g (List.mem_cons_of_mem _ hg)) hn r3
      refine ⟨m2, M2, ?_, ?_, q3⟩
      · rw [stepAll, Res.loop, h.1, r1]; exact q1
      · rw [stepAll, Res.loop, r2]; exact q2

/-- The numbers of a function of limited size. -/
theorem sized_nums {b c : Nat} (hb : b ≤ 52) (hc : c ≤ 52) {name : Str} {rs : List ℝ} {f : Fn} (hf : Means name rs f) (hs : f.Sized b c) :
    ∀ r ∈ rs, |r| ≤ 2 ^ 52 := by
  have pb : (2 : ℝ) ^ b ≤ 2 ^ 52 := pow_le_pow_right₀ (by norm_num) hb
  have pc : (2 : ℝ) ^ c ≤ 2 ^ 52 := pow_le_pow_right₀ (by norm_num) hc
  intro r hr
  cases hf with
  | translate e => rcases hs with ⟨h1, h2⟩; fin_cases hr <;> [exact h1.trans pc; exact h2.trans pc]
  | translateX e => rcases hs with ⟨h1, h2⟩; fin_cases hr; exact h1.trans pc
  | scale e => rcases hs with ⟨h1, h2⟩; fin_cases hr <;> [exact h1.trans pb; exact h2.trans pb]
  | scaleBoth e => rcases hs with ⟨h1, h2⟩; fin_cases hr; exact h1.trans pb
  | rotate e => fin_cases hr; exact le_trans hs (by norm_num)
  | rotateAbout e =>
    rcases hs with ⟨h1, h2, h3⟩
    fin_cases hr <;> [exact h1.trans (by norm_num); exact h2.trans pc; exact h3.trans pc]
  | skewX e => fin_cases hr; exact le_trans hs (by norm_num)
  | skewY e => fin_cases hr; exact le_trans hs (by norm_num)
  | matrix e =>
    obtain ⟨k1, k2⟩ := hs
    simp only [List.mem_cons, List.not_mem_nil, or_false, forall_eq_or_imp, forall_eq] at k1 k2
    fin_cases hr
    · exact k1.1.trans pb
    · exact k1.2.1.trans pb
    · exact k1.2.2.1.trans pb
    · exact k1.2.2.2.trans pb
    · exact k2.1.trans pc
    · exact k2.2.trans pc

/-- A list as it is read in binary64. -/
theorem list_rounded {b c : Nat} {l : List (FnText ℝ)} {fs : List Fn} (hbc : fs ≠ [] → b ≤ 52 ∧ c ≤ 52) (hf : MeansList l fs)
    (hw : ∀ t ∈ l, t.WF) (hs : ∀ f ∈ fs, f.Sized b c) : ∃ l' : List (FnText F64), (∀ t ∈ l', t.WF) ∧ listText l' [] = listText l [] ∧
      List.Forall₂ (fun t' t => t'.name = t.name ∧ List.Forall₂ Rounded t'.nums t.nums) l' l := by
  induction hf with
  | nil => exact ⟨[], by simp, rfl, .nil⟩
  | @cons t f l fs h1 _ ih =>
    obtain ⟨hb, hc⟩ := hbc (by simp)
    obtain ⟨l', q1, q2, q3⟩ := ih (fun _ => ⟨hb, hc⟩) (fun t ht => hw t (List.mem_cons_of_mem _ ht)) fun g hg => hs g (List.mem_cons_of_mem _ hg)
    obtain ⟨t', r1, r2, r3, r4⟩ := fn_rounded (hw t List.mem_cons_self) (sized_nums hb hc h1 (hs f List.mem_cons_self))
    refine ⟨t' :: l', ?_, ?_, .cons ⟨r3, r4⟩ q3⟩
    · intro x hx
      rcases List.mem_cons.1 hx with rfl | hx
      · exact r1
      · exact q1 x hx
    · simp only [listText, List.append_nil, List.flatMap_cons] at q2 ⊢
      rw [r2, q2]

theorem steps_identity (b c : Nat) : Steps b c 0 Matrix2D.identity Matrix2D.identity := by
  have hi := isId_identity
  have z : ∀ {x : F64} {q : ℚ} {k : Nat}, Is x q → |(q : ℝ)| ≤ 2 ^ k → Ent ((0 : ℕ) / 2 ^ 45) k x (num q) := by
    intro x q k h hq
    have := near_is h
    exact ⟨by simpa using this, by simpa using hq⟩
  have one : ∀ k : Nat, |((1 : ℚ) : ℝ)| ≤ 2 ^ k := fun k => by simpa using one_le_pow₀ (by norm_num : (1 : ℝ) ≤ 2)
  have zero : ∀ k : Nat, |((0 : ℚ) : ℝ)| ≤ 2 ^ k := fun k => by simp
  exact ⟨z hi.a (one _), z hi.b (zero _), z hi.c (zero _), z hi.d (one _), z hi.e (zero _), z hi.f (zero _)⟩

/-- The matrix of an element in binary64: close to one that does what the transforms say. -/
theorem cascade_steps (hL : Accurate) {b c : Nat} {V : List Elem → Cursor F64 → Prop} {ch : List Elem} {st : PathStyle F64} (h : Cascade V ch st) {n : Nat}
    {T : P2 → P2} (hT : TransformedUpTo b c ch n T) (hn : c + n * (b + 2) ≤ 48) :
    ∃ M : Matrix2D ℝ, (∀ p, affine M p = T p) ∧ Steps b c n st.transform M := by
  induction h generalizing n T with
  | root => cases hT; exact ⟨_, fun p => C20_identity_map p, steps_identity b c⟩
  | @elem e ch top st rest c0 c' h hs hv hl ih =>
    have hp := pushed_style hs hl
    have hb52 : ∀ {k : Nat}, 0 < k → c + k * (b + 2) ≤ 48 → b ≤ 52 ∧ c ≤ 52 := by
      intro k hk h
      have : 1 * (b + 2) ≤ k * (b + 2) := Nat.mul_le_mul hk le_rfl
      omega
    cases hT with
    | plain h1 h2 =>
      rw [← decls_eq_declared] at h1
      rw [declLoop_keeps_transform _ h1 _ _ _ _ hl]
      exact ih h2 hn
    | @list _ _ n l fs h1 h2 h3 h4 hz h5 =>
      have hle : n * (b + 2) ≤ (n + countAll fs) * (b + 2) := Nat.mul_le_mul (by omega) le_rfl
      obtain ⟨M, hM, hst⟩ := ih h1 (by omega)
      have hid : M = Matrix2D.identity := by
        have i0 := hM (0, 0)
        have i1 := hM (1, 0)
        have i2 := hM (0, 1)
        simp only [affine, id, Prod.mk.injEq, mul_zero, mul_one, zero_add, add_zero] at i0 i1 i2
        apply Matrix2D.ext' <;> simp only [Matrix2D.identity, real_num] <;> norm_num <;>
          linarith [i0.1, i0.2, i1.1, i1.2, i2.1, i2.2]
      have hbc : fs ≠ [] → b ≤ 52 ∧ c ≤ 52 := by
        intro hne
        refine hb52 ?_ hn
        cases fs with
        | nil => exact absurd rfl hne
        | cons f fs =>
          have : 1 ≤ f.count := by cases f <;> simp only [Fn.count] <;> omega
          simp only [countAll, List.map_cons, List.sum_cons]
          omega
      obtain ⟨l', w1, w2, w3⟩ := list_rounded hbc h3 h2 hz
      rw [← w2] at h5
      obtain ⟨st', m, e1, e2, e3⟩ := pushStyle_transform h5 hs hp
      rw [parseTransform_list l' w1 (by intro c hc; simp at hc) hs] at e2
      have hrev : MeansList l.reverse fs.reverse := List.rel_reverse h3
      have hcount : countAll fs.reverse = countAll fs := by simp [countAll, List.sum_reverse]
      obtain ⟨m1, M1, s1, s2, s3⟩ := steps_list hL hrev (List.rel_reverse w3) (fun f hf => hz f (List.mem_reverse.1 hf)) (by rw [hcount]; exact hn) hst
      rw [s1, Res.ok.injEq] at e2
      obtain ⟨M2, t1, t2⟩ := stepAll_identity h3 h4
      rw [hid, t1, Res.ok.injEq] at s2
      obtain ⟨rfl, -⟩ := List.cons.inj e1
      rw [hcount, e2, ← e3, ← s2] at s3
      exact ⟨M2, t2, s3⟩
    | @one _ _ n T t f h1 h2 h3 h4 hz h5 h6 =>
      have hle : n * (b + 2) ≤ (n + f.count) * (b + 2) := Nat.mul_le_mul (by omega) le_rfl
      obtain ⟨M, hM, hst⟩ := ih h1 (by omega)
      have hbc := hb52 (k := n + f.count) (by cases f <;> simp only [Fn.count] <;> omega) hn
      obtain ⟨t', r1, r2, r3, r4⟩ := fn_rounded h2 (sized_nums hbc.1 hbc.2 h3 hz)
      have et : t.text = listText [t'] [] := by simp [listText, r2]
      rw [et] at h5
      obtain ⟨st', m, e1, e2, e3⟩ := pushStyle_transform h5 hs hp
      rw [parseTransform_list [t'] (by simpa using r1) (by intro c hc; simp at hc) hs] at e2
      obtain ⟨m1, M1, s1, s2, s3⟩ := steps_fn hL h3 hz r4 hn hst
      rw [List.reverse_singleton, stepAll, Res.loop, r3, s1] at e2
      have e2' : m1 = m := by cases e2; rfl
      obtain ⟨rfl, -⟩ := List.cons.inj e1
      rw [e2', ← e3] at s3
      refine ⟨M1, fun p => ?_, s3⟩
      rw [(nested_step h3 h4 s2).2 (h6 M hM) p, hM]
      rfl

end Chain

/-! ### Drawing -/

/-- The matrix of the target. -/
theorem target_rel {b c : Nat} {vb : Bounds F64} {x y w h : F64} {V : Bounds ℝ} {X Y W H : ℝ} (ht : SizedTarget b c vb x y w h V X Y W H)
    (hw : V.w ≠ 0) (hh : V.h ≠ 0) (hc : c ≤ 48) :
    MatRel (1 / 2 ^ 46) b c (options vb [.target x y w h]).target (options V [.target X Y W H]).target := by
  obtain ⟨⟨vx, vy, vw, vh, ⟨b1, b2, b3, b4⟩, rfl⟩, ⟨x', y', w', h', ⟨t1, t2, t3, t4⟩, rfl, rfl, rfl, rfl⟩, ⟨s1, s2⟩, k, hk, k1, k2⟩ := ht
  dsimp only at s1 s2 k1 k2 hw hh
  have hm := C49_float64_partial vb ⟨b1, b2, b3, b4⟩ (by exact_mod_cast hw) (by exact_mod_cast hh) x y w h t1 t2 t3 t4 k b (by omega) k1 k2 s1 s2
  have eq : (options ⟨(vx : ℝ), vy, vw, vh⟩ [.target (x' : ℝ) y' w' h']).target =
      ⟨(w' : ℝ) / vw, 0, 0, (h' : ℝ) / vh, (x' - vx) * (w' / vw), (y' - vy) * (h' / vh)⟩ := by
    simp only [options, List.foldl_cons, List.foldl_nil, RenderOption.apply, Matrix2D.identity, Matrix2D.translate,
      Matrix2D.scale, real_add, real_mul, real_sub, real_div, real_num]
    norm_num
  rw [eq] at hm ⊢
  have pb : (0 : ℝ) < 2 ^ b := by positivity
  have pk : (2 : ℝ) ^ (k + b) ≤ 2 ^ c := pow_le_pow_right₀ (by norm_num) hk
  have pkb : (2 : ℝ) ^ (k + b) = 2 ^ k * 2 ^ b := pow_add _ _ _
  have lin : ∀ {z : F64} {Z : ℝ}, (∃ q : ℚ, Is z q ∧ |(q : ℝ) - Z| ≤ 2 ^ b / 2 ^ 54) → |Z| ≤ 2 ^ b → Ent (1 / 2 ^ 46) b z Z := by
    rintro z Z ⟨q, h1, h2⟩ h3
    exact ⟨⟨q, h1, h2.trans (by norm_num; linarith)⟩, h3⟩
  have tr : ∀ {z : F64} {u v : ℝ}, (∃ q : ℚ, Is z q ∧ |(q : ℝ) - u * v| ≤ 2 ^ (k + b) / 2 ^ 51) → |u| ≤ 2 ^ k → |v| ≤ 2 ^ b → Ent (1 / 2 ^ 46) c z (u * v) := by
    rintro z u v ⟨q, h1, h2⟩ h3 h4
    refine ⟨⟨q, h1, h2.trans ?_⟩, ?_⟩
    · have : (0 : ℝ) < 2 ^ (k + b) := by positivity
      norm_num
      linarith
    · rw [abs_mul]
      refine le_trans ?_ pk
      rw [pkb]
      exact mul_le_mul h3 h4 (abs_nonneg _) (by positivity)
  exact ⟨lin hm.a s1, lin hm.b (by simp), lin hm.c (by simp), lin hm.d s2, tr hm.e k1 s1, tr hm.f k2 s2⟩

omit [Libm] in
theorem Ent.bound {η : ℝ} {l : Nat} {x : F64} {X : ℝ} (h : Ent η l x X) : |X| ≤ 2 ^ l := h.2

/-- A point drawn with a matrix that is close to `f`. -/
theorem drawn_near {b c n e : Nat} {mat : Matrix2D F64} {M : Matrix2D ℝ} {f : P2 → P2} (hm : Steps b c (n + 1) mat M) (hM : ∀ p, affine M p = f p)
    (hq : c + (n + 1) * (b + 2) ≤ 22) (hec : e ≤ c) {D : ℝ} (hD : D ≤ 2 ^ e) {p : Pt} {r : Pnt ℝ} (hp : PtWithin D p r) (hr : Up2 e r) :
    CallPt (stretchX f * D + 1 / 64 + (n + 2) * 2 ^ (c + (n + 1) * (b + 2)) / 2 ^ 43) (stretchY f * D + 1 / 64 + (n + 2) * 2 ^ (c + (n + 1) * (b + 2)) / 2 ^ 43)
      (px (mat.tFixed p).x) (px (mat.tFixed p).y) (f r) := by
  have e1 : (n + 1) * (b + 2) = (n + 1) * (b + 1) + n + 1 := by ring
  generalize hl : (n + 1) * (b + 1) = l at e1
  generalize hqq : c + (n + 1) * (b + 2) = q at *
  have hle : e + l + 1 ≤ q := by omega
  have hn22 : (n : ℝ) + 1 ≤ 22 := by exact_mod_cast (by omega : n + 1 ≤ 22)
  have hm : MatRel ((n + 1) / 2 ^ 45) l q mat M := by
    have : MatRel (((n + 1 : ℕ) : ℝ) / 2 ^ 45) ((n + 1) * (b + 1)) (c + (n + 1) * (b + 2)) mat M := hm
    rw [hl, hqq] at this
    push_cast at this
    exact this
  obtain ⟨η, hη⟩ : ∃ η : ℝ, η = ((n : ℝ) + 1) / 2 ^ 45 := ⟨_, rfl⟩
  rw [← hη] at hm
  have η0 : 0 ≤ η := by rw [hη]; positivity
  have η1 : η ≤ 1 := by rw [hη, div_le_one (by positivity)]; exact hn22.trans (by norm_num)
  have pe : (0 : ℝ) < 2 ^ e := by positivity
  have pl : (0 : ℝ) < 2 ^ l := by positivity
  have pq : (0 : ℝ) < 2 ^ q := by positivity
  have e7 : (2 : ℝ) ^ (e + 7) = 128 * 2 ^ e := by rw [pow_add]; ring
  have e8 : (2 : ℝ) ^ (q + 8) = 256 * 2 ^ q := by rw [pow_add]; ring
  have hq22 : (2 : ℝ) ^ q ≤ 2 ^ 22 := pow_le_pow_right₀ (by norm_num) hq
  have hel : 2 * ((2 : ℝ) ^ e * 2 ^ l) ≤ 2 ^ q := by
    have : (2 : ℝ) ^ (e + l + 1) ≤ 2 ^ q := pow_le_pow_right₀ (by norm_num) hle
    rw [pow_add, pow_add] at this
    linarith
  have ηq : η * 2 ^ q ≤ 2 ^ q := by nlinarith
  have ηel : 2 * (2 ^ e * (η * 2 ^ l)) ≤ η * 2 ^ q := by nlinarith
  have coord : ∀ {z : ℤ} {X : ℝ}, |(z / 64 : ℝ) - X| < D → |X| ≤ 2 ^ e → |(z / 64 : ℝ)| ≤ 2 * 2 ^ e := by
    intro z X h1 h2
    have := abs_sub_abs_le_abs_sub (z / 64 : ℝ) X
    linarith
  have cx := coord hp.1 hr.1
  have cy := coord hp.2 hr.2
  have big : ∀ {z : ℤ}, |(z / 64 : ℝ)| ≤ 2 * 2 ^ e → |(z : ℝ)| ≤ 2 ^ (e + 7) := by
    intro z h
    rw [abs_div, abs_of_pos (by norm_num : (0 : ℝ) < 64)] at h
    rw [e7]
    linarith
  have hlin : ∀ {z : F64} {Z : ℝ}, Ent η l z Z → 2 ^ (e + 7) * (|Z| + η * 2 ^ l) ≤ 2 ^ (q + 8) := by
    intro z Z h
    rw [e7, e8]
    have h1 : |Z| + η * 2 ^ l ≤ 2 * 2 ^ l := by have := h.2; nlinarith
    have h2 := mul_le_mul_of_nonneg_left h1 (by positivity : (0 : ℝ) ≤ 128 * 2 ^ e)
    linarith
  have htr : ∀ {z : F64} {Z : ℝ}, Ent η q z Z → 64 * (|Z| + η * 2 ^ q) ≤ 2 ^ (q + 8) := by
    intro z Z h
    rw [e8]
    have := h.2
    linarith
  have img : ∀ {z w u : F64} {Z W U P Q : ℝ}, Ent η l z Z → Ent η l w W → Ent η q u U → |P| ≤ 2 * 2 ^ e → |Q| ≤ 2 * 2 ^ e → |Z * P + W * Q + U| ≤ 3 * 2 ^ q := by
    intro z w u Z W U P Q h1 h2 h3 hP hQ
    have a1 := abs_add_le (Z * P + W * Q) U
    have a2 := abs_add_le (Z * P) (W * Q)
    rw [abs_mul, abs_mul] at a2
    have m1 := mul_le_mul h1.2 hP (abs_nonneg _) pl.le
    have m2 := mul_le_mul h2.2 hQ (abs_nonneg _) pl.le
    have := h3.2
    linarith
  have ix := img hm.a hm.c hm.e cx cy
  have iy := img hm.b hm.d hm.f cx cy
  have aff : affine M (fixed p) = (M.a * (p.x / 64) + M.c * (p.y / 64) + M.e, M.b * (p.x / 64) + M.d * (p.y / 64) + M.f) := rfl
  have herr : (2 * 2 ^ (e + 7) * (η * 2 ^ l) + 64 * (η * 2 ^ q)) + 2 ^ (q + 8) / 2 ^ 50 ≤ (n + 2) * 2 ^ q / 2 ^ 37 := by
    rw [e7, e8]
    have h1 : 2 * (128 * 2 ^ e) * (η * 2 ^ l) ≤ 128 * (η * 2 ^ q) := by linarith
    have h2 : η * 2 ^ q = (n + 1) * 2 ^ q / 2 ^ 45 := by rw [hη]; ring
    have h3 : 0 ≤ (n : ℝ) * 2 ^ q := by positivity
    norm_num at h2 ⊢
    linarith
  have hsmall : ((n : ℝ) + 2) * 2 ^ q / 2 ^ 37 ≤ 2 ^ 22 := by
    have : ((n : ℝ) + 2) * 2 ^ q ≤ 23 * 2 ^ 22 := mul_le_mul (by linarith) hq22 pq.le (by norm_num)
    norm_num at this ⊢
    linarith
  have near : MatWithin (η * 2 ^ l) (η * 2 ^ q) mat M := ⟨hm.a.1, hm.b.1, hm.c.1, hm.d.1, hm.e.1, hm.f.1⟩
  have key := C23_float64 mat M _ _ near p (2 ^ (e + 7)) (big cx) (big cy) (pow_le_pow_right₀ (by norm_num) (by omega)) (q + 8) (by omega)
    (by
      simp only [List.mem_cons, List.not_mem_nil, or_false, forall_eq_or_imp, forall_eq]
      exact ⟨hlin hm.a, hlin hm.b, hlin hm.c, hlin hm.d⟩)
    (by
      simp only [List.mem_cons, List.not_mem_nil, or_false, forall_eq_or_imp, forall_eq]
      exact ⟨htr hm.e, htr hm.f⟩)
    (by rw [aff, abs_mul, abs_of_pos (by norm_num : (0 : ℝ) < 64)]; dsimp only; linarith)
    (by rw [aff, abs_mul, abs_of_pos (by norm_num : (0 : ℝ) < 64)]; dsimp only; linarith)
  have sx : stretchX f = |M.a| + |M.c| := by simp [stretchX, lin_affine hM]
  have sy : stretchY f = |M.b| + |M.d| := by simp [stretchY, lin_affine hM]
  have d : ∀ {a c : ℝ}, |a * ((p.x : ℝ) / 64 - r.1) + c * ((p.y : ℝ) / 64 - r.2)| ≤ (|a| + |c|) * D := by
    intro a c
    have := abs_add_le (a * ((p.x : ℝ) / 64 - r.1)) (c * ((p.y : ℝ) / 64 - r.2))
    rw [abs_mul, abs_mul] at this
    have h3 := mul_le_mul_of_nonneg_left hp.1.le (abs_nonneg a)
    have h4 := mul_le_mul_of_nonneg_left hp.2.le (abs_nonneg c)
    linarith
  have dx : |(affine M (fixed p)).1 - (f r).1| ≤ stretchX f * D := by
    rw [← hM, sx]
    have : (affine M (fixed p)).1 - (affine M r).1 = M.a * ((p.x : ℝ) / 64 - r.1) + M.c * ((p.y : ℝ) / 64 - r.2) := by
      simp only [affine, fixed]; ring
    rw [this]; exact d
  have dy : |(affine M (fixed p)).2 - (f r).2| ≤ stretchY f * D := by
    rw [← hM, sy]
    have : (affine M (fixed p)).2 - (affine M r).2 = M.b * ((p.x : ℝ) / 64 - r.1) + M.d * ((p.y : ℝ) / 64 - r.2) := by
      simp only [affine, fixed]; ring
    rw [this]; exact d
  have fin : ∀ {z : ℤ} {v u S : ℝ}, |(z : ℝ) - 64 * v| < 1 + ((2 * 2 ^ (e + 7) * (η * 2 ^ l) + 64 * (η * 2 ^ q)) + 2 ^ (q + 8) / 2 ^ 50) → |v| ≤ 3 * 2 ^ q →
      |v - u| ≤ S → NumWithin (S + 1 / 64 + (n + 2) * 2 ^ q / 2 ^ 43) (px z : F64) u := by
    intro z v u S h1 h2 h3
    have hz : |z| < 2 ^ 53 := by
      have h4 := abs_sub_abs_le_abs_sub (z : ℝ) (64 * v)
      rw [abs_mul, abs_of_pos (by norm_num : (0 : ℝ) < 64)] at h4
      have : |(z : ℝ)| < 2 ^ 53 := by linarith
      exact_mod_cast this
    refine ⟨_, is_px hz, ?_⟩
    push_cast
    have h5 := abs_sub_le ((z : ℝ) / 64) v u
    have h6 : |(z : ℝ) / 64 - v| = |(z : ℝ) - 64 * v| / 64 := by
      rw [show (z : ℝ) / 64 - v = ((z : ℝ) - 64 * v) / 64 by ring, abs_div, abs_of_pos (by norm_num : (0 : ℝ) < 64)]
    have h7 : ((n : ℝ) + 2) * 2 ^ q / 2 ^ 43 = (n + 2) * 2 ^ q / 2 ^ 37 / 64 := by rw [div_div]; norm_num
    linarith
  rw [aff] at key dx dy
  exact ⟨fin key.1 ix dx, fin key.2 iy dy⟩

section Documents

variable [GoEnv] [RxEnv F64] {fuel : Nat} {m : ErrorMode} {root : Elem} {ch : List Elem} {attrs : List Attr} {lead body post : List Token} {s : Svg F64}

/-- C82, for whatever an element contributes: in binary64 too it is drawn where its transforms and then the target put it. -/
theorem C82_drawn_partial (hL : Accurate) {name : Str} (h : Parsed fuel m root ch name attrs lead body post s)
    (hb : Balanced (lead ++ .start root.name root.attrs :: body ++ [.start name attrs])) {b c n : Nat} {T : P2 → P2}
    (hT : TransformedUpTo b c (⟨name, attrs⟩ :: ch) n T) (hq : c + (n + 1) * (b + 2) ≤ 22) {x y w ht : F64} {V : Bounds ℝ} {X Y W H : ℝ}
    (hs : SizedTarget b c s.viewBox x y w ht V X Y W H) (hf : InPlace V X Y W H T) {e : Nat} (hec : e ≤ c) {D : ℝ} (hD : D ≤ 2 ^ e) {G : List (GOp ℝ)}
    (hG : ∀ o ∈ G, UpOp e o)
    (hc : Contributes fuel m (lead ++ .start root.name root.attrs :: body) (.start name attrs) s fun ops => List.Forall₂ (OpWithin D) ops G) :
    ∃ i pen, (∀ k, DrawnBy (F := F64) fuel m (lead ++ .start root.name root.attrs :: body) (.start name attrs) k ↔ k = i) ∧
      DrawnWith s [.target x y w ht] i pen ∧
      List.Forall₂ (CallWithin (stretchX (fitted V X Y W H ∘ T) * D + 1 / 64 + (n + 2) * 2 ^ (c + (n + 1) * (b + 2)) / 2 ^ 43)
        (stretchY (fitted V X Y W H ∘ T) * D + 1 / 64 + (n + 2) * 2 ^ (c + (n + 1) * (b + 2)) / 2 ^ 43) (fitted V X Y W H ∘ T)) pen G := by
  obtain ⟨i, p, h1, h2, h3⟩ := hc
  obtain ⟨l, hl⟩ := h.result
  have hl' : parse (F := F64) fuel m ((lead ++ .start root.name root.attrs :: body) ++ .start name attrs :: post) .eof = .done (some s) none l := by
    rw [List.append_assoc]; exact hl
  have hcas := drawnBy_cascade (V := fun _ _ => True) (W := fun _ _ _ => True) (fun _ _ _ _ => trivial)
    (fun _ _ _ _ _ _ _ _ _ _ _ => trivial) trivial hb h.place.around hl' ((h1 i).2 rfl) h2
  have hle : n * (b + 2) ≤ (n + 1) * (b + 2) := Nat.mul_le_mul (by omega) le_rfl
  obtain ⟨M, hM, hst⟩ := cascade_steps hL hcas hT (by omega)
  have hmat := steps_mult (by omega) hst (target_rel hs hf.box.1 hf.box.2 (by omega))
  have hMf : ∀ q, affine (M.mult (options V [.target X Y W H]).target) q = (fitted V X Y W H ∘ T) q := inPlace_affine hM hf
  refine ⟨i, _, h1, drawnWith_of h2 _, ?_⟩
  have pt : ∀ {p : Pt} {r : Pnt ℝ}, PtWithin D p r → Up2 e r → _ := fun {p r} hp hr => drawn_near hmat hMf hq hec hD (p := p) (r := r) hp hr
  clear hl hl' h2 hcas
  generalize p.path = ops at h3 ⊢
  induction h3 with
  | nil => exact .nil
  | cons h _ ih =>
    rw [List.map_cons]
    refine .cons ?_ (ih fun o ho => hG o (List.mem_cons_of_mem _ ho))
    have := hG _ List.mem_cons_self
    cases h with
    | moveTo h => exact .moveTo (pt h this)
    | lineTo h => exact .lineTo (pt h this)
    | quadTo h h' => exact .quadTo (pt h this.1) (pt h' this.2)
    | cubicTo h h' h'' => exact .cubicTo (pt h this.1) (pt h' this.2.1) (pt h'' this.2.2)
    | close => exact .close

omit [GoEnv] [RxEnv F64] in
/-- An accurate library is exact at zero. -/
theorem exactAtZero_of (hL : Accurate) : ExactAtZero := by
  have hzero : ∀ z : F64, Is z 0 → ∃ s e, z = .fin s 0 e := by
    rintro z ⟨s, m, e, rfl, -, h⟩
    have : (m : ℚ) * 2 ^ e = 0 := by cases s <;> simpa using h
    rcases mul_eq_zero.1 this with h0 | h0
    · exact ⟨s, e, by rw [Nat.cast_eq_zero.1 h0]⟩
    · exact absurd h0 (by positivity)
  constructor
  · intro z hz
    obtain ⟨s, e, rfl⟩ := hzero z hz
    exact hL.cos_zero s e
  · intro z hz
    obtain ⟨s, e, rfl⟩ := hzero z hz
    rw [hL.sin_zero]
    exact ⟨s, 0, -1074, rfl, by norm_num, by simp⟩
  · rw [hL.piMul]
    obtain ⟨p, hp, -⟩ := roundRat_nearest false (q := 1 / 180 * goPi) (pow_bound (E := 0) (by norm_num) (by norm_num [goPi, abs_of_pos]))
    exact ⟨p, hp⟩

omit [RxEnv F64] in
/-- C82, the matrix that is stored with a path. -/
theorem C82_stored_partial (hL : Accurate) {name : Str} (h : Parsed fuel m root ch name attrs lead body post s)
    (hb : Balanced (lead ++ .start root.name root.attrs :: body ++ [.start name attrs])) {b c n : Nat} {T : P2 → P2}
    (hT : TransformedUpTo b c (⟨name, attrs⟩ :: ch) n T) (hq : c + n * (b + 2) ≤ 48) {i : Nat}
    (hi : DrawnBy (F := F64) fuel m (lead ++ .start root.name root.attrs :: body) (.start name attrs) i) {p : SvgPath F64} (hp : s.svgPaths[i]? = some p) :
    ∃ M : Matrix2D ℝ, (∀ q, affine M q = T q) ∧ MatWithin (n / 2 ^ 45 * 2 ^ (n * (b + 1))) (n / 2 ^ 45 * 2 ^ (c + n * (b + 2))) p.style.transform M := by
  obtain ⟨l, hl⟩ := h.result
  have hl' : parse (F := F64) fuel m ((lead ++ .start root.name root.attrs :: body) ++ .start name attrs :: post) .eof = .done (some s) none l := by
    rw [List.append_assoc]; exact hl
  have hcas := drawnBy_cascade (V := fun _ _ => True) (W := fun _ _ _ => True) (fun _ _ _ _ => trivial)
    (fun _ _ _ _ _ _ _ _ _ _ _ => trivial) trivial hb h.place.around hl' hi hp
  obtain ⟨M, hM, hst⟩ := cascade_steps hL hcas hT hq
  exact ⟨M, hM, hst.a.1, hst.b.1, hst.c.1, hst.d.1, hst.e.1, hst.f.1⟩

/-- C82, lines. Partial: the transforms and targets for which the code composes in the right order (`TransformedBy`, `InPlace`), as in exact
arithmetic, here and below. -/
theorem C82_line_partial (hL : Accurate) (h : Parsed fuel m root ch "line".toList attrs lead body post s)
    (hb : Balanced (lead ++ .start root.name root.attrs :: body ++ [.start "line".toList attrs])) {b c n : Nat} {T : P2 → P2}
    (hT : TransformedUpTo b c (⟨"line".toList, attrs⟩ :: ch) n T) (hq : c + (n + 1) * (b + 2) ≤ 22) {x y w ht : F64} {V : Bounds ℝ} {X Y W H : ℝ}
    (hs : SizedTarget b c s.viewBox x y w ht V X Y W H) (hf : InPlace V X Y W H T) {e : Nat} (hec : e ≤ c)
    {x1 y1 x2 y2 : ℝ} (h1 : SizedLen V.w e attrs "x1" x1) (h2 : SizedLen V.h e attrs "y1" y1) (h3 : SizedLen V.w e attrs "x2" x2)
    (h4 : SizedLen V.h e attrs "y2" y2) :
    ∃ i pen, (∀ k, DrawnBy (F := F64) fuel m (lead ++ .start root.name root.attrs :: body) (.start "line".toList attrs) k ↔ k = i) ∧
      DrawnWith s [.target x y w ht] i pen ∧
      List.Forall₂ (CallWithin (stretchX (fitted V X Y W H ∘ T) * (1 / 64 + 2 ^ e / 2 ^ 45) + 1 / 64 + (n + 2) * 2 ^ (c + (n + 1) * (b + 2)) / 2 ^ 43)
        (stretchY (fitted V X Y W H ∘ T) * (1 / 64 + 2 ^ e / 2 ^ 45) + 1 / 64 + (n + 2) * 2 ^ (c + (n + 1) * (b + 2)) / 2 ^ 43) (fitted V X Y W H ∘ T)) pen
        [.moveTo (x1, y1), .lineTo (x2, y2)] := by
  obtain ⟨l, hl'⟩ := h.result
  have hz : Is (num 0 : F64) 0 := F64.is_num F64.rep_zero
  obtain ⟨vx, vy, vw, vh, ⟨-, -, b3, b4⟩, rfl⟩ := id hs.box
  refine C82_drawn_partial hL h hb hT hq hs hf hec (stored_le e (by norm_num)) ?_ (stands_contributes h.place hl' fun c st hr hx hy hv => ?_)
  · intro o ho
    simp only [List.mem_cons, List.not_mem_nil, or_false] at ho
    rcases ho with rfl | rfl
    · exact ⟨h1.1, h2.1⟩
    · exact ⟨h3.1, h4.1⟩
  · exact C76_line h.distinct hr (hx ▸ hz) (hy ▸ hz) (by omega) (hv ▸ b3) (hv ▸ b4) h1 h2 h3 h4

/-- C82, rectangles with square corners. -/
theorem C82_rect_partial (hL : Accurate) (h : Parsed fuel m root ch "rect".toList attrs lead body post s)
    (hb : Balanced (lead ++ .start root.name root.attrs :: body ++ [.start "rect".toList attrs])) {b c n : Nat} {T : P2 → P2}
    (hT : TransformedUpTo b c (⟨"rect".toList, attrs⟩ :: ch) n T) (hq : c + (n + 1) * (b + 2) ≤ 22) {x y w ht : F64} {V : Bounds ℝ} {X Y W H : ℝ}
    (hs : SizedTarget b c s.viewBox x y w ht V X Y W H) (hf : InPlace V X Y W H T) {e : Nat} (hec : e ≤ c)
    {rx ry rw rh : ℝ} (h1 : SizedLen V.w e attrs "x" rx) (h2 : SizedLen V.h e attrs "y" ry)
    (h3 : SizedLen V.w e attrs "width" rw) (h4 : SizedLen V.h e attrs "height" rh) (h5 : ∀ v, ¬ Given attrs "rx" v) (h6 : ∀ v, ¬ Given attrs "ry" v)
    (hrw : 2 ^ e / 2 ^ 45 < |rw|) (hrh : 2 ^ e / 2 ^ 45 < |rh|) (hc : |rx + rw| ≤ 2 ^ e ∧ |ry + rh| ≤ 2 ^ e) :
    ∃ i pen, (∀ k, DrawnBy (F := F64) fuel m (lead ++ .start root.name root.attrs :: body) (.start "rect".toList attrs) k ↔ k = i) ∧
      DrawnWith s [.target x y w ht] i pen ∧
      List.Forall₂ (CallWithin (stretchX (fitted V X Y W H ∘ T) * (1 / 64 + 2 ^ e / 2 ^ 43) + 1 / 64 + (n + 2) * 2 ^ (c + (n + 1) * (b + 2)) / 2 ^ 43)
        (stretchY (fitted V X Y W H ∘ T) * (1 / 64 + 2 ^ e / 2 ^ 43) + 1 / 64 + (n + 2) * 2 ^ (c + (n + 1) * (b + 2)) / 2 ^ 43) (fitted V X Y W H ∘ T)) pen
        [.moveTo (rx, ry), .lineTo (rx + rw, ry), .lineTo (rx + rw, ry + rh), .lineTo (rx, ry + rh), .close] := by
  obtain ⟨l, hl'⟩ := h.result
  have hz : Is (num 0 : F64) 0 := F64.is_num F64.rep_zero
  obtain ⟨vx, vy, vw, vh, ⟨-, -, b3, b4⟩, rfl⟩ := id hs.box
  refine C82_drawn_partial hL h hb hT hq hs hf hec (stored_le e (by norm_num)) ?_ (stands_contributes h.place hl' fun c st hr hx hy hv => ?_)
  · intro o ho
    simp only [List.mem_cons, List.not_mem_nil, or_false] at ho
    rcases ho with rfl | rfl | rfl | rfl | rfl
    · exact ⟨h1.1, h2.1⟩
    · exact ⟨hc.1, h2.1⟩
    · exact ⟨hc.1, hc.2⟩
    · exact ⟨h1.1, hc.2⟩
    · trivial
  · exact C76_rect (exactAtZero_of hL) h.distinct hr (hx ▸ hz) (hy ▸ hz) (by omega) (hv ▸ b3) (hv ▸ b4) h1 h2 h3 h4 h5 h6 hrw hrh hc

/-- C82, circles and ellipses. -/
theorem C82_ellipse_partial (hL : Accurate) {name : Str} (hn : name = "circle".toList ∨ name = "ellipse".toList)
    (h : Parsed fuel m root ch name attrs lead body post s)
    (hb : Balanced (lead ++ .start root.name root.attrs :: body ++ [.start name attrs])) {b c n : Nat} {T : P2 → P2}
    (hT : TransformedUpTo b c (⟨name, attrs⟩ :: ch) n T) (hq : c + (n + 1) * (b + 2) ≤ 22) {x y w ht : F64} {V : Bounds ℝ} {X Y W H : ℝ}
    (hs : SizedTarget b c s.viewBox x y w ht V X Y W H) (hf : InPlace V X Y W H T) {e : Nat} (hec : e + 2 ≤ c)
    {cx cy rx ry : ℝ} (h1 : SizedLen V.w e attrs "cx" cx) (h2 : SizedLen V.h e attrs "cy" cy) (h3 : SizedRadii V.w V.h e attrs rx ry)
    (ha : 2 ^ e / 2 ^ 42 < rx) (hb' : 2 ^ e / 2 ^ 42 < ry) :
    ∃ cs, Follows ⟨cx, cy, rx, ry, 0⟩ 0 (-(2 * Real.pi)) 17 cs ∧
    ∃ i pen, (∀ k, DrawnBy (F := F64) fuel m (lead ++ .start root.name root.attrs :: body) (.start name attrs) k ↔ k = i) ∧
      DrawnWith s [.target x y w ht] i pen ∧
      List.Forall₂ (CallWithin (stretchX (fitted V X Y W H ∘ T) * (1 / 64 + 2 ^ e / 2 ^ 38) + 1 / 64 + (n + 2) * 2 ^ (c + (n + 1) * (b + 2)) / 2 ^ 43)
        (stretchY (fitted V X Y W H ∘ T) * (1 / 64 + 2 ^ e / 2 ^ 38) + 1 / 64 + (n + 2) * 2 ^ (c + (n + 1) * (b + 2)) / 2 ^ 43) (fitted V X Y W H ∘ T)) pen
        (.moveTo (cx + rx, cy) :: cs.map (fun c => .cubicTo c.p1 c.p2 c.p3) ++ [.close]) := by
  have pe : (0 : ℝ) < 2 ^ e / 2 ^ 42 := by positivity
  obtain ⟨l, hl'⟩ := h.result
  have hz : Is (num 0 : F64) 0 := F64.is_num F64.rep_zero
  obtain ⟨vx, vy, vw, vh, ⟨-, -, b3, b4⟩, rfl⟩ := id hs.box
  refine ⟨_, turnCubics_follow (pe.trans ha).ne' (pe.trans hb').ne', ?_⟩
  refine C82_drawn_partial hL h hb hT hq hs hf hec ?_ ?_ (stands_contributes h.place hl' fun c st hr hx hy hv => ?_)
  · exact (stored_le e (by norm_num)).trans (pow_le_pow_right₀ (by norm_num) (by omega))
  · refine turnCubics_up h1.1 h2.1 ?_ ?_
    · rcases h3 with ⟨h, -⟩ | ⟨h, -⟩
      · exact h.1.1
      · exact h.1
    · rcases h3 with ⟨h, rfl, -⟩ | ⟨-, h, -⟩
      · exact h.1.1
      · exact h.1
  · exact ellipse_stored hL hn h.distinct hr (hx ▸ hz) (hy ▸ hz) (by omega) (hv ▸ b3) (hv ▸ b4) h1 h2 h3 ha hb'

/-- C82, polylines and polygons of three or more points. -/
theorem C82_poly_partial (hL : Accurate) {closed : Bool} (h : Parsed fuel m root ch (if closed then "polygon" else "polyline").toList attrs lead body post s)
    (hb : Balanced (lead ++ .start root.name root.attrs :: body ++ [.start (if closed then "polygon" else "polyline").toList attrs])) {b c n : Nat} {T : P2 → P2}
    (hT : TransformedUpTo b c (⟨(if closed then "polygon" else "polyline").toList, attrs⟩ :: ch) n T) (hq : c + (n + 1) * (b + 2) ≤ 22) {x y w ht : F64} {V : Bounds ℝ} {X Y W H : ℝ}
    (hs : SizedTarget b c s.viewBox x y w ht V X Y W H) (hf : InPlace V X Y W H T) {e : Nat} (hec : e ≤ c)
    {p : ℝ × ℝ} {pts : List (ℝ × ℝ)} {g : GroupList} (hg : g.WF) (hp : Given attrs "points" g.text)
    (hc : g.numbers.map (fun n => (n.value : ℝ)) = coords (p :: pts)) (hup : ∀ r ∈ p :: pts, Up2 e r) (h2 : 2 ≤ pts.length) :
    ∃ i pen, (∀ k, DrawnBy (F := F64) fuel m (lead ++ .start root.name root.attrs :: body) (.start (if closed then "polygon" else "polyline").toList attrs) k ↔ k = i) ∧
      DrawnWith s [.target x y w ht] i pen ∧
      List.Forall₂ (CallWithin (stretchX (fitted V X Y W H ∘ T) * (1 / 64 + 2 ^ e / 2 ^ 54) + 1 / 64 + (n + 2) * 2 ^ (c + (n + 1) * (b + 2)) / 2 ^ 43)
        (stretchY (fitted V X Y W H ∘ T) * (1 / 64 + 2 ^ e / 2 ^ 54) + 1 / 64 + (n + 2) * 2 ^ (c + (n + 1) * (b + 2)) / 2 ^ 43) (fitted V X Y W H ∘ T)) pen
        (.moveTo p :: pts.map .lineTo ++ (if closed then [.close] else [])) := by
  obtain ⟨l, hl'⟩ := h.result
  have hz : Is (num 0 : F64) 0 := F64.is_num F64.rep_zero
  obtain ⟨vx, vy, vw, vh, ⟨-, -, b3, b4⟩, rfl⟩ := id hs.box
  refine C82_drawn_partial hL h hb hT hq hs hf hec (stored_le e (by norm_num)) ?_ (stands_contributes h.place hl' fun c st hr hx hy hv => ?_)
  · intro o ho
    rcases List.mem_append.1 ho with ho | ho
    · rcases List.mem_cons.1 ho with rfl | ho
      · exact hup _ List.mem_cons_self
      · obtain ⟨r, hr, rfl⟩ := List.mem_map.1 ho
        exact hup _ (List.mem_cons_of_mem _ hr)
    · cases closed
      · cases ho
      · rcases List.mem_cons.1 ho with rfl | ho
        · trivial
        · cases ho
  · exact C76_poly_partial h.distinct hr (hx ▸ hz) (hy ▸ hz) (by omega) hg hp hc hup h2

/-- C82, paths without arcs. -/
theorem C82_path_partial (hL : Accurate) (h : Parsed fuel m root ch "path".toList attrs lead body post s)
    (hb : Balanced (lead ++ .start root.name root.attrs :: body ++ [.start "path".toList attrs])) {b c n : Nat} {T : P2 → P2}
    (hT : TransformedUpTo b c (⟨"path".toList, attrs⟩ :: ch) n T) (hq : c + (n + 1) * (b + 2) ≤ 22) {x y w ht : F64} {V : Bounds ℝ} {X Y W H : ℝ}
    (hs : SizedTarget b c s.viewBox x y w ht V X Y W H) (hf : InPlace V X Y W H T) {e : Nat} (hec : e ≤ c)
    (pre : Str) (hpre : ∀ ch ∈ pre, GoEnv.isLetter ch = false) (cmds : List (Cmd ℝ)) (ts : List Str) (hw : List.Forall₂ WrittenExactly cmds ts)
    (hm : StartsWithMoves false cmds) (ha : ∀ cmd ∈ cmds, ∀ r ∈ cmd.args, |r| ≤ 2 ^ e) (hG : ∀ o ∈ draw cmds, UpOp e o)
    (hne : draw cmds ≠ []) (N : Nat) (hl : (draw cmds).length ≤ N) (hN : N * (N + 1) ≤ 2 ^ 51) (hv : Given attrs "d" (pre ++ ts.flatten)) :
    ∃ i pen, (∀ k, DrawnBy (F := F64) fuel m (lead ++ .start root.name root.attrs :: body) (.start "path".toList attrs) k ↔ k = i) ∧
      DrawnWith s [.target x y w ht] i pen ∧
      List.Forall₂ (CallWithin (stretchX (fitted V X Y W H ∘ T) * (1 / 64 + N * (N + 1) * 2 ^ e / 2 ^ 52) + 1 / 64 + (n + 2) * 2 ^ (c + (n + 1) * (b + 2)) / 2 ^ 43)
        (stretchY (fitted V X Y W H ∘ T) * (1 / 64 + N * (N + 1) * 2 ^ e / 2 ^ 52) + 1 / 64 + (n + 2) * 2 ^ (c + (n + 1) * (b + 2)) / 2 ^ 43) (fitted V X Y W H ∘ T)) pen
        (draw cmds) := by
  obtain ⟨l, hl'⟩ := h.result
  have hz : Is (num 0 : F64) 0 := F64.is_num F64.rep_zero
  refine C82_drawn_partial hL h hb hT hq hs hf hec ?_ hG (stands_contributes h.place hl' fun c st hr hx hy _ => ?_)
  · have hN' : (N : ℝ) * (N + 1) ≤ 2 ^ 51 := by exact_mod_cast hN
    have h1 : (1 : ℝ) ≤ 2 ^ e := one_le_pow₀ (by norm_num)
    have h2 : (N : ℝ) * (N + 1) * 2 ^ e / 2 ^ 52 ≤ 2 ^ 51 * 2 ^ e / 2 ^ 52 :=
      div_le_div_of_nonneg_right (mul_le_mul_of_nonneg_right hN' (by positivity)) (by positivity)
    have h3 : (2 : ℝ) ^ 51 * 2 ^ e / 2 ^ 52 = 2 ^ e / 2 := by ring
    linarith
  · obtain ⟨pc, h1, h2, -⟩ := C74_path_error e (by omega) pre hpre cmds ts hw hm ha hG N hl (by omega) c.pc (hx ▸ hz) (hy ▸ hz)
    have := path_adds (fuel := fuel) h.distinct hr hv h1
    have hnil : pc.path ≠ [] := by
      intro h0
      rw [h0] at h2
      exact hne (List.forall₂_nil_left_iff.1 h2)
    rw [if_neg (by simpa using hnil)] at this
    exact ⟨_, h2, this⟩

end Documents

end GoSvg

namespace GoSvg

open Spec F64

theorem is_96 [Libm] : Is (num 96 : F64) 96 := is_num (by simpa using rep_nat (n := 96) (by norm_num))

section Examples

attribute [local instance] asciiEnv
attribute [local instance] fineLibm

/-- Some rasterizer. -/
local instance exRx64 : RxEnv F64 := ⟨fun _ => (⟨0, 0⟩, ⟨0, 0⟩)⟩

/-- The transform of the example: `translate(1,2)rotate(180)`, in a target of four times the size. -/
theorem ex_moved (p : P2) : (fitted ⟨0, 0, 24, 24⟩ 0 0 96 96 ∘ applyList [.translate 1 2, .rotate 180]) p = (4 - 4 * p.1, 8 - 4 * p.2) := by
  have e : rad 180 = Real.pi := by simp [rad]
  simp only [fitted, applyList, Fn.apply, rot, e, Function.comp, List.foldr, Real.cos_pi, Real.sin_pi, Prod.mk.injEq]
  constructor <;> norm_num <;> ring

set_option maxRecDepth 100000 in
/-- The hypotheses of `C82_line_partial` are met by `<line x2="10" y2="50%" transform="translate(1,2)rotate(180)"/>`: it is drawn from (4, 8) to
(-36, -40), within less than a tenth of a pixel. -/
example : ∃ (s : Svg F64) (i : Nat) (pen : List (Event F64)) (d : ℝ), DrawnWith s [.target (num 0) (num 0) (num 96) (num 96)] i pen ∧ d < 1 / 10 ∧
    List.Forall₂ (CallWithin d d id) pen [.moveTo (4, 8), .lineTo (-36, -40)] := by
  have hts : ∀ t ∈ [fnText "translate" "1,2" [1, 2], fnText "rotate" "180" [180]], t.WF := by
    intro t ht
    simp only [List.mem_cons, List.not_mem_nil, or_false] at ht
    rcases ht with rfl | rfl
    · exact ex_translate
    · exact ex_rotate
  have hT : TransformedUpTo 2 5 (⟨"line".toList, attrsOf [("x2", "10"), ("y2", "50%"), ("transform", "translate(1,2)rotate(180)")]⟩ :: drawCh)
      (0 + countAll [.translate 1 2, .rotate 180]) (applyList [.translate 1 2, .rotate 180]) := by
    refine .list (l := [fnText "translate" "1,2" [1, 2], fnText "rotate" "180" [180]]) (.plain (by decide +kernel) (.plain (by decide +kernel) .root)) hts
      (.cons (.translate (by decide)) (.cons (.rotate (by decide)) .nil)) ⟨?_, ?_⟩ ?_
      ⟨[("x2".toList, "10".toList), ("y2".toList, "50%".toList)], [], by decide +kernel, by simp⟩
    · intro t ht
      simp only [List.dropLast, List.mem_cons, List.not_mem_nil, or_false] at ht
      subst ht
      exact .inl ⟨by decide, rfl⟩
    · intro t ht
      cases ht
      exact .inr (.inl ⟨by decide, rfl⟩)
    · intro f hf
      simp only [List.mem_cons, List.not_mem_nil, or_false] at hf
      rcases hf with rfl | rfl <;> norm_num [Fn.Sized]
  obtain ⟨A, hA⟩ : ∃ A, A = attrsOf [("x2", "10"), ("y2", "50%"), ("transform", "translate(1,2)rotate(180)")] := ⟨_, rfl⟩
  rw [← hA] at hT
  obtain ⟨s, hs, hbox⟩ := draw_parsed' "line" A (by rw [hA]; decide) (by rw [hA]; decide +kernel) (by rw [hA]; decide +kernel)
  obtain ⟨b1, b2, b3, b4⟩ := hbox
  have hfun : fitted ⟨0, 0, 24, 24⟩ 0 0 96 96 ∘ applyList [.translate 1 2, .rotate 180] = fun p => (4 - 4 * p.1, 8 - 4 * p.2) := funext ex_moved
  obtain ⟨i, pen, -, h2, h3⟩ := C82_line_partial fine_accurate hs
    (draw_balanced (by rw [hA]; decide +kernel) (by rw [hA]; decide +kernel) (by rw [hA]; decide +kernel)) hT (by norm_num [countAll, Fn.count])
    (x := num 0) (y := num 0) (w := num 96) (ht := num 96) (V := ⟨0, 0, 24, 24⟩) (X := 0) (Y := 0) (W := 96) (H := 96)
    ⟨⟨0, 0, 24, 24, ⟨b1, b2, b3, b4⟩, by norm_num⟩, ⟨0, 0, 96, 96, ⟨is_num rep_zero, is_num rep_zero, is_96, is_96⟩, by norm_num⟩, by norm_num, 0, by norm_num⟩
    ⟨by norm_num, .inl rfl, .inl rfl, .inl rfl, by simp [fitted, lin, applyList, Fn.apply, rot]⟩ (e := 5) (by norm_num)
    (sizedLen_none (by rw [hA]; decide)) (sizedLen_none (by rw [hA]; decide))
    (sizedLen_of ⟨false, "10".toList, none, none⟩ "" 1 (v := 10) (r := 10) (by decide +kernel)
      (by rw [hA]; decide +kernel) (by decide +kernel) (by simp [Spec.units]) (by norm_num) (by norm_num [abs_le]))
    (by
      have := sizedLen_percent (W := 24) (e := 5) (attrs := A) (name := "y2") ⟨false, "50".toList, none, none⟩ (v := 50) (r := 12) (by decide +kernel)
        (by rw [hA]; decide +kernel) (by decide +kernel) (by norm_num) (by norm_num) (by norm_num) (by norm_num [abs_le])
      norm_num only [Rat.cast_ofNat] at this
      exact this)
  rw [hfun] at h3
  have hx : stretchX (fun p : P2 => (4 - 4 * p.1, 8 - 4 * p.2)) = 4 := by norm_num [stretchX, lin]
  have hy : stretchY (fun p : P2 => (4 - 4 * p.1, 8 - 4 * p.2)) = 4 := by norm_num [stretchY, lin]
  rw [hx, hy] at h3
  have hd : 4 * (1 / 64 + 2 ^ 5 / 2 ^ 45) + 1 / 64 + (((0 + countAll [.translate 1 2, .rotate 180] : Nat) : ℝ) + 2) *
      2 ^ (5 + (0 + countAll [.translate 1 2, .rotate 180] + 1) * (2 + 2)) / 2 ^ 43 < 1 / 10 := by norm_num [countAll, Fn.count]
  generalize 4 * (1 / 64 + 2 ^ 5 / 2 ^ 45) + 1 / 64 + (((0 + countAll [.translate 1 2, .rotate 180] : Nat) : ℝ) + 2) *
      2 ^ (5 + (0 + countAll [.translate 1 2, .rotate 180] + 1) * (2 + 2)) / 2 ^ 43 = d at hd h3
  refine ⟨s, i, pen, d, h2, hd, ?_⟩
  rcases h3 with _ | ⟨g1, _ | ⟨g2, _ | _⟩⟩
  cases g1 with | moveTo g1 => cases g2 with | lineTo g2 =>
  norm_num only [Rat.cast_ofNat] at g1 g2
  exact .cons (.moveTo g1) (.cons (.lineTo g2) .nil)

end Examples

end GoSvg
