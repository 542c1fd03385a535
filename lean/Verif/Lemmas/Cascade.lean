import Verif.Lemmas.Walk
import Verif.Lemmas.Declared
import Verif.Spec.Cascade
import Verif.Props.Parsing
import Verif.Props.Places

/-! The styles on the stack come from the declarations of the open elements. -/

set_option linter.unusedSectionVars false

namespace GoSvg

open Spec

variable {F : Type} [GoFloat F] [GoEnv]

open SM (get modify throw lift panic diverge forEach)

/-! ### Balanced documents -/

/-- The state in front of the rest of a balanced document. -/
inductive BalAt (ch : List Elem) (ts : List Token) (c : Cursor F) : Prop
  | noUse (h : NoUseAt (· = .color) ch ts c)
  | tidy (h : TidyRest (· = .color) ch ts c)

theorem BalAt.inv {ch : List Elem} {ts : List Token} {c : Cursor F} (h : BalAt ch ts c) : Inv c := by
  cases h with
  | noUse h => exact h.inv
  | tidy h => exact h.inv

theorem BalAt.useFine {ch : List Elem} {t : Token} {ts : List Token} {c : Cursor F} (h : BalAt ch (t :: ts) c) : UseFine t c := by
  cases h with
  | noUse h => exact .inl (noUse_cons h.noUse).1
  | tidy h => exact h.useFine

theorem BalAt.step {fuel : Nat} {ch ch1 : List Elem} {t : Token} {ts : List Token} {c c1 : Cursor F} {u : Unit}
    (hj : BalAt ch (t :: ts) c) (hst : Step ch t ch1) (hr : readToken fuel t c = (.ok u, c1)) : BalAt ch1 ts c1 := by
  cases hj with
  | noUse hj =>
    have hu : UseFine t c := .inl (noUse_cons hj.noUse).1
    have hsafe := (readToken_safe fuel (hj.colors t List.mem_cons_self) hj.inv (.inl ⟨hj.walk.ne, hu⟩)).2
    rw [hr] at hsafe
    exact .noUse ⟨step_walk hj.walk hu hst hr, hsafe, (noUse_cons hj.noUse).2, fun t' h => hj.colors t' (List.mem_cons_of_mem _ h)⟩
  | tidy hj => exact .tidy (tidyRest_step hj hst hr)

theorem balAt_init (mode : ErrorMode) {ts : List Token} (h : Balanced ts) : BalAt [] ts (initCursor (F := F) mode) := by
  rcases h.use with hu | ⟨h1, h2⟩
  · exact .noUse (noUse_start mode hu (tokensOK_color _))
  · exact .tidy (tidy_start mode ⟨h.nested, h1, .inr h2⟩ (tokensOK_color _))

/-! ### The cascade -/

/-- `st` is what the declarations of the open elements make of the default style, one element after the other, each read in a
state with `V`. -/
inductive Cascade (V : List Elem → Cursor F → Prop) : List Elem → PathStyle F → Prop
  | root : Cascade V [] defaultStyle
  | elem {e : Elem} {ch : List Elem} {top st : PathStyle F} {rest : List (PathStyle F)} {c c' : Cursor F} (h : Cascade V ch top)
      (hs : c.styleStack = top :: rest) (hv : V ch c) (hl : declLoop top (decls e.attrs) c = (.ok st, c')) : Cascade V (e :: ch) st

/-- The style stack, from the top. -/
def StackAt (V : List Elem → Cursor F → Prop) : List Elem → List (PathStyle F) → Prop
  | [], stack => stack = [defaultStyle]
  | e :: ch, stack => ∃ st rest, stack = st :: rest ∧ Cascade V (e :: ch) st ∧ StackAt V ch rest

theorem stackAt_top {V : List Elem → Cursor F → Prop} {ch : List Elem} {stack : List (PathStyle F)} (h : StackAt V ch stack)
    {st : PathStyle F} {rest : List (PathStyle F)} (hs : stack = st :: rest) : Cascade V ch st := by
  cases ch with
  | nil =>
    rw [show stack = [defaultStyle] from h] at hs
    cases hs; exact .root
  | cons e ch =>
    obtain ⟨st', rest', h1, h2, -⟩ := h
    rw [h1] at hs
    cases hs; exact h2

theorem step_stackAt {V : List Elem → Cursor F → Prop} {fuel : Nat} {t : Token} {ts : List Token} {c c' : Cursor F} {u : Unit} {ch ch' : List Elem}
    (hj : BalAt ch (t :: ts) c) (hv : V ch c) (hs : StackAt V ch c.styleStack) (hst : Step ch t ch')
    (h : readToken fuel t c = (.ok u, c')) : StackAt V ch' c'.styleStack := by
  cases hst with
  | start name attrs =>
    obtain ⟨top, rest, st, c1, h1, h2, h3, -⟩ := start_stack hj.inv hj.useFine h
    refine ⟨st, top :: rest, h3, .elem (stackAt_top hs h1) h1 hv h2, ?_⟩
    rwa [← h1]
  | stop e ch =>
    obtain ⟨-, hE⟩ := stop_stack h
    obtain ⟨st, rest, h1, -, h2⟩ := hs
    rw [hE.stack, h1]
    exact h2
  | chars _ => rw [chars_fields h]; exact hs
  | other => cases h; exact hs

/-- The state after a part of a balanced document. -/
theorem balanced_run {V : List Elem → Cursor F → Prop} {W : List Elem → List Token → Cursor F → Prop} {fuel : Nat}
    (hW : ∀ ch ts c, W ch ts c → V ch c)
    (hstep : ∀ ch t ts c ch1 c1 u, BalAt ch (t :: ts) c → W ch (t :: ts) c → Step ch t ch1 → readToken fuel t c = (.ok u, c1) → W ch1 ts c1)
    (els : List Token) : ∀ (pre : List Token) (ch ch' : List Elem) (c c' : Cursor F) (u : Unit), BalAt ch (pre ++ els) c →
      W ch (pre ++ els) c → StackAt V ch c.styleStack → openFrom ch pre = some ch' → readTokens fuel pre c = (.ok u, c') →
      BalAt ch' els c' ∧ W ch' els c' ∧ StackAt V ch' c'.styleStack
  | [], ch, ch', c, c', u, hj, hw, hs, ho, hr => by cases ho; cases hr; exact ⟨hj, hw, hs⟩
  | t :: ts, ch, ch', c, c', u, hj, hw, hs, ho, hr => by
    obtain ⟨ch1, hst, ho⟩ := openFrom_cons ho
    rw [readTokens_cons, SM.bind_run] at hr
    rcases htk : readToken fuel t c with ⟨r, c1⟩
    rw [htk] at hr
    cases r with
    | ok v =>
      exact balanced_run hW hstep els ts ch1 ch' c1 c' u (hj.step hst htk) (hstep _ _ _ _ _ _ _ hj hw hst htk)
        (step_stackAt hj (hW _ _ _ hw) hs hst htk) ho hr
    | err e => cases hr
    | panic s => cases hr
    | diverge => cases hr

/-! ### Where a path comes from -/

theorem parse_broken (fuel : Nat) (m : ErrorMode) (ts : List Token) (h : (readTokens fuel ts (initCursor (F := F) m)).1.Tame) :
    Outcome.paths (parse (F := F) fuel m ts (.error 0)) = (readTokens fuel ts (initCursor (F := F) m)).2.svg.svgPaths := by
  unfold parse
  rcases hr : readTokens fuel ts (initCursor (F := F) m) with ⟨r, c⟩
  rw [hr] at h
  cases r with
  | ok u => rfl
  | err e => rfl
  | panic s => exact absurd h id
  | diverge => exact absurd h id

theorem parse_ok {fuel : Nat} {m : ErrorMode} {ts : List Token} {s : Svg F} {l : List Msg}
    (h : parse (F := F) fuel m ts .eof = .done (some s) none l) :
    ∃ c, readTokens fuel ts (initCursor (F := F) m) = (.ok (), c) ∧ c.svg = s := by
  unfold parse at h
  rcases hr : readTokens fuel ts (initCursor (F := F) m) with ⟨r, c⟩
  rw [hr] at h
  cases r with
  | ok u => dsimp only at h; split at h <;> cases h; exact ⟨c, rfl, rfl⟩
  | err e => cases h
  | panic e => cases h
  | diverge => cases h

/-- The states before and after the token a path comes from. -/
theorem drawnBy_states {fuel : Nat} {m : ErrorMode} {pre post : List Token} {t : Token} {s : Svg F} {l : List Msg} {i : Nat} {p : SvgPath F}
    (h : parse (F := F) fuel m (pre ++ t :: post) .eof = .done (some s) none l) (hd : DrawnBy (F := F) fuel m pre t i)
    (hp : s.svgPaths[i]? = some p) : ∃ c c' cf, readTokens fuel pre (initCursor (F := F) m) = (.ok (), c) ∧
      readToken fuel t c = (.ok (), c') ∧ readTokens fuel post c' = (.ok (), cf) ∧ cf.svg = s ∧
      ∀ new, c'.svg.svgPaths = c.svg.svgPaths ++ new → p ∈ new := by
  obtain ⟨cf, hr, hcf⟩ := parse_ok h
  rw [readTokens_append, SM.bind_run] at hr
  rcases h1 : readTokens fuel pre (initCursor (F := F) m) with ⟨r, c⟩
  rw [h1] at hr
  cases r with
  | ok u =>
    dsimp only at hr
    rw [readTokens_cons, SM.bind_run] at hr
    rcases h2 : readToken fuel t c with ⟨r, c'⟩
    rw [h2] at hr
    cases r with
    | ok v =>
      dsimp only at hr
      refine ⟨c, c', cf, rfl, h2, hr, hcf, fun new hn => ?_⟩
      obtain ⟨d1, d2⟩ := hd
      have h12 : readTokens fuel (pre ++ [t]) (initCursor (F := F) m) = (.ok (), c') := by
        rw [readTokens_append, SM.bind_run, h1]
        dsimp only
        rw [readTokens_cons, SM.bind_run, h2]
        rfl
      rw [parse_broken _ _ _ (by rw [h1]; trivial), h1] at d1
      rw [parse_broken _ _ _ (by rw [h12]; trivial), h12] at d2
      have hg := (readTokens_grow fuel post c').svgPaths
      rw [hr] at hg
      dsimp only at hg d1 d2
      rw [hcf] at hg
      obtain ⟨tl, htl⟩ := hg
      rw [← htl, List.getElem?_append_left d2, hn, List.getElem?_append_right d1] at hp
      exact List.mem_of_getElem? hp
    | err e => cases hr
    | panic s => cases hr
    | diverge => cases hr
  | err e => cases hr
  | panic s => cases hr
  | diverge => cases hr

/-- The style of a path is the cascade of the elements it stands in. -/
theorem drawnBy_cascade {V : List Elem → Cursor F → Prop} {W : List Elem → List Token → Cursor F → Prop} {fuel : Nat} {m : ErrorMode}
    (hW : ∀ ch ts c, W ch ts c → V ch c)
    (hstep : ∀ ch t ts c ch1 c1 u, BalAt ch (t :: ts) c → W ch (t :: ts) c → Step ch t ch1 → readToken fuel t c = (.ok u, c1) → W ch1 ts c1)
    {pre post : List Token} {name : Str} {attrs : List Attr} {s : Svg F} {l : List Msg} {i : Nat} {p : SvgPath F}
    (hinit : W [] (pre ++ [.start name attrs]) (initCursor m))
    (hb : Balanced (pre ++ [.start name attrs])) {ch : List Elem} (hch : openFrom [] pre = some ch)
    (h : parse (F := F) fuel m (pre ++ .start name attrs :: post) .eof = .done (some s) none l)
    (hd : DrawnBy (F := F) fuel m pre (.start name attrs) i) (hp : s.svgPaths[i]? = some p) :
    Cascade V (⟨name, attrs⟩ :: ch) p.style := by
  obtain ⟨c, c', cf, h1, h2, -, -, h4⟩ := drawnBy_states h hd hp
  obtain ⟨b1, b2, b3⟩ := balanced_run hW hstep [.start name attrs] pre [] ch _ c () (balAt_init m hb) hinit rfl hch h1
  obtain ⟨top, rest, st, c1, e1, e2, -, new, e3, e4⟩ := start_stack b1.inv b1.useFine h2
  rw [e4 p (h4 new e3)]
  exact .elem (stackAt_top b3 e1) e1 (hW _ _ _ b2) e2

end GoSvg
