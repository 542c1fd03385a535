import Verif.Props.Inherit
import Verif.Props.Color
import Verif.Spec.Computed

/-! The last declaration of a property along the open elements decides. -/

set_option linter.unusedSectionVars false

namespace GoSvg

open Spec

variable {F : Type} [GoFloat F] [GoEnv] {α : Type}

open SM (get modify throw lift panic diverge forEach)

/-- `y` is what the last value says, `x` when there is none. -/
def LastSays (R : Str → α → Prop) (vs : List Str) (x y : α) : Prop :=
  match vs.getLast? with
  | some v => R v y
  | none => y = x

theorem lastSays_append {R : Str → α → Prop} {vs ws : List Str} {x y z : α} (h1 : LastSays R vs x y) (h2 : LastSays R ws y z) :
    LastSays R (vs ++ ws) x z := by
  unfold LastSays at *
  rw [List.getLast?_append]
  cases h : ws.getLast? with
  | some v => rw [h] at h2; exact h2
  | none =>
    rw [h] at h2
    subst h2
    simpa using h1

theorem lastSays_some {R : Str → α → Prop} {vs : List Str} {x y : α} (h : LastSays R vs x y) {v : Str} (hv : vs.getLast? = some v) : R v y := by
  unfold LastSays at h; rw [hv] at h; exact h

theorem lastSays_nil {R : Str → α → Prop} {x y : α} (h : LastSays R [] x y) : y = x := h

theorem lastSays_mono {R S : Str → α → Prop} (hRS : ∀ v y, R v y → S v y) {vs : List Str} {x y : α} (h : LastSays R vs x y) : LastSays S vs x y := by
  unfold LastSays at *
  split at h
  · exact hRS _ _ h
  · exact h

/-- When every value is read by a function. -/
theorem lastSays_read {read : Str → Option α} {vs : List Str} {x y : α} (h : LastSays (fun v y => read v = some y) (vs.filter fun v => (read v).isSome) x y) :
    y = lastRead read x vs := by
  have key : ∀ vs : List Str, (vs.filterMap read).getLast? = ((vs.filter fun v => (read v).isSome).getLast?).bind read := by
    intro vs
    induction vs using List.reverseRecOn with
    | nil => rfl
    | append_singleton vs v ih =>
      rw [List.filterMap_append, List.filter_append, List.getLast?_append, List.getLast?_append, ih]
      cases hv : read v with
      | none => simp [hv]
      | some w => simp [hv]
  unfold lastRead
  rw [key]
  unfold LastSays at h
  cases hl : (vs.filter fun v => (read v).isSome).getLast? with
  | none => rw [hl] at h; exact h
  | some v =>
    rw [hl] at h
    dsimp only at h
    rw [Option.bind_some, h]; rfl

/-- The field `g` of a style is set by the property `k` alone: by values with `p`, to something in the relation `R` (which may depend
on the view box); other values keep it. -/
structure Decides (k : String) (g : PathStyle F → α) (p : Str → Bool) (R : Bounds F → Str → α → Prop) : Prop where
  sets : ∀ {st st' : PathStyle F} {v : Str} {c c' : Cursor F}, readStyleAttr st k.toList v c = (.ok st', c') →
    if p v = true then R c.svg.viewBox v (g st') else g st' = g st
  keeps : ∀ {st st' : PathStyle F} {k' v : Str} {c c' : Cursor F}, k' ≠ k.toList → readStyleAttr st k' v c = (.ok st', c') → g st' = g st

variable {k : String} {g : PathStyle F → α} {p : Str → Bool} {R : Bounds F → Str → α → Prop}

theorem declLoop_last (hd : Decides k g p R) (ds : List (Str × Str)) : ∀ {st st' : PathStyle F} {c c' : Cursor F},
    declLoop st ds c = (.ok st', c') → LastSays (R c.svg.viewBox) ((valuesIn [k] ds).filter p) (g st) (g st') := by
  induction ds with
  | nil => intro st st' c c' h; cases h; exact rfl
  | cons d ds ih =>
    intro st st' c c' h
    rw [declLoop, SM.bind_run] at h
    have hR := readStyleAttr_styleR st d.1 d.2 c
    rcases hr : readStyleAttr st d.1 d.2 c with ⟨r, c1⟩
    rw [hr] at h hR
    cases r with
    | ok st1 =>
      have hb : c1.svg.viewBox = c.svg.viewBox := by
        have := congrArg (fun c => c.svg.viewBox) hR.eq; exact this
      have i := ih h
      rw [hb] at i
      rw [valuesIn_one, List.filter_append]
      refine lastSays_append (y := g st1) ?_ i
      by_cases hk : d.1 = k.toList
      · rw [if_pos hk]
        rw [hk] at hr
        have := hd.sets hr
        by_cases hp : p d.2 = true
        · rw [if_pos hp] at this
          rw [List.filter_cons, if_pos hp]
          exact this
        · rw [if_neg hp] at this
          rw [List.filter_cons, if_neg hp]
          exact this
      · rw [if_neg hk]
        exact hd.keeps hk hr
    | err e => cases h
    | panic e => cases h
    | diverge => cases h

/-- Along any chain of elements, when the view box does not matter. -/
theorem cascade_last {S : Str → α → Prop} (hd : Decides k g p (fun _ => S)) {V : List Elem → Cursor F → Prop} {ch : List Elem} {st : PathStyle F}
    (h : Cascade V ch st) : LastSays S ((valuesAlong [k] ch).filter p) (g defaultStyle) (g st) := by
  induction h with
  | root => exact rfl
  | elem h hs hv hl ih =>
    rw [valuesAlong_cons, List.filter_append, ← decls_eq_declared]
    exact lastSays_append ih (declLoop_last hd _ hl)

/-- The view box before the root element is read. -/
def noBox : Bounds F := (initCursor (F := F) ErrorMode.ignore).svg.viewBox

/-- The root's own declarations are read without a view box, the others with it. -/
theorem cascade_box (hd : Decides k g p R) {vb : Bounds F} {root : Elem} : ∀ {up : List Elem} {st : PathStyle F},
    Cascade (BoxAt vb) (up ++ [root]) st → ∃ x, LastSays (R noBox) ((valuesAlong [k] [root]).filter p) (g defaultStyle) x ∧
      LastSays (R vb) ((valuesAlong [k] up).filter p) x (g st)
  | [], st, h => by
    refine ⟨g st, ?_, rfl⟩
    rcases h with _ | ⟨h, hs, hv, hl⟩
    cases h
    have := declLoop_last hd _ hl
    rw [show _ = noBox from hv, decls_eq_declared] at this
    rw [valuesAlong_cons]
    exact this
  | e :: up, st, h => by
    rcases h with _ | ⟨h, hs, hv, hl⟩
    obtain ⟨x, h1, h2⟩ := cascade_box hd h
    refine ⟨x, h1, ?_⟩
    rw [valuesAlong_cons, List.filter_append, ← decls_eq_declared]
    refine lastSays_append h2 ?_
    have := declLoop_last hd _ hl
    rw [show _ = vb from hv.trans (if_neg (by simp))] at this
    exact this

/-! ### The properties -/

/-- Properties that a value sets to what `f` makes of it. -/
theorem decides_of {f : Bounds F → Str → Res α} {u : PathStyle F → α → PathStyle F}
    (he : ∀ (svg : Svg F) st v, p v = true → styleEff svg st k.toList v = .set (do .ok (u st (← f svg.viewBox v))))
    (hw : ∀ (svg : Svg F) st v, p v = false → styleEff svg st k.toList v = .set (.ok st) ∨ ∃ m, styleEff svg st k.toList v = .warn m)
    (hu : ∀ st x, g (u st x) = x)
    (hk : ∀ {st st' : PathStyle F} {k' : Str}, Only k' st st' → k' ≠ k.toList → g st' = g st) :
    Decides k g p (fun vb v y => f vb v = .ok y) where
  sets := by
    intro st st' v c c' h
    rw [readStyleAttr_eff] at h
    by_cases hp : p v = true
    · rw [if_pos hp]
      rw [he _ _ _ hp] at h
      simp only [runEff, SM.lift_run, Prod.mk.injEq] at h
      obtain ⟨x, h1, h2⟩ := res_map_inv h.1
      rw [h1, ← h2, hu]
    · rw [if_neg hp]
      rcases hw c.svg st v (by simpa using hp) with h1 | ⟨m, h1⟩
      · rw [h1] at h
        simp only [runEff, SM.lift_run, Prod.mk.injEq] at h
        cases h.1; rfl
      · rw [h1, runEff, SM.bind_run] at h
        split at h
        · cases h; rfl
        all_goals cases h
  keeps := fun hne h => hk (readStyleAttr_only h) hne

theorem width_decides : Decides (F := F) "stroke-width" (·.lineWidth) (fun _ => true) (fun vb v y => resolveUnit vb v .width = .ok y) :=
  decides_of (f := fun vb v => resolveUnit vb v .width) (u := fun st x => { st with lineWidth := x }) (fun _ _ _ _ => rfl)
    (fun _ _ _ h => nomatch h) (fun _ _ => rfl) (fun h => h.lineWidth)

theorem dashOffset_decides : Decides (F := F) "stroke-dashoffset" (·.dash.dashOffset) (fun _ => true) (fun vb v y => resolveUnit vb v .diag = .ok y) :=
  decides_of (f := fun vb v => resolveUnit vb v .diag) (u := fun st x => { st with dash := { st.dash with dashOffset := x } }) (fun _ _ _ _ => rfl)
    (fun _ _ _ h => nomatch h) (fun _ _ => rfl) (fun h => h.dashOffset)

theorem dash_decides : Decides (F := F) "stroke-dasharray" (·.dash.dash) (fun v => v ≠ "none".toList)
    (fun vb v y => parseDashes vb (splitOnCommaOrSpace v) = .ok y) :=
  decides_of (f := fun vb v => parseDashes vb (splitOnCommaOrSpace v)) (u := fun st x => { st with dash := { st.dash with dash := x } })
    (fun svg st v h => by
      have hv : v ≠ "none".toList := by simpa using h
      show (if v ≠ "none".toList then _ else _) = _
      rw [if_pos hv])
    (fun svg st v h => by
      have hv : ¬ v ≠ "none".toList := by simpa using h
      left
      show (if v ≠ "none".toList then _ else _) = _
      rw [if_neg hv]) (fun _ _ => rfl) (fun h => h.dash)

theorem miter_decides : Decides (F := F) "stroke-miterlimit" (·.join.miterLimit) (fun _ => true)
    (fun _ v y => (do .ok (toFix (← parseBasicFloat (F := F) v))) = .ok y) :=
  decides_of (f := fun _ v => do .ok (toFix (← parseBasicFloat (F := F) v))) (u := fun st x => { st with join := { st.join with miterLimit := x } })
    (fun svg st v _ => by
      show Eff.set (do .ok { st with join := { st.join with miterLimit := toFix (← parseBasicFloat (F := F) v) } }) = _
      congr 1
      cases (parseBasicFloat v : Res F) <;> rfl)
    (fun _ _ _ h => nomatch h) (fun _ _ => rfl) (fun h => h.miterLimit)

/-- As a `Res`. -/
def orFail {α : Type} : Option α → Res α
  | some x => .ok x
  | none => .err .badFloat

theorem orFail_ok {x : Option α} {y : α} (h : orFail x = .ok y) : x = some y := by
  cases x with
  | none => cases h
  | some z => cases h; rfl

/-- Keyword properties. -/
theorem keyword_decides {table : List (String × α)} {read : Str → Option α} (hr : ∀ v, read v = keyword table v) {u : PathStyle F → α → PathStyle F}
    (he : ∀ (svg : Svg F) st v, styleEff svg st k.toList v = match read v with
      | some x => .set (.ok (u st x))
      | none => .warn (.unsupportedValue k.toList v))
    (hu : ∀ st x, g (u st x) = x)
    (hk : ∀ {st st' : PathStyle F} {k' : Str}, Only k' st st' → k' ≠ k.toList → g st' = g st) :
    Decides k g (fun v => (keyword table v).isSome) (fun _ v y => keyword table v = some y) := by
  have h := decides_of (k := k) (g := g) (p := fun v => (keyword table v).isSome) (f := fun _ v => orFail (keyword table v)) (u := u)
    (fun svg st v h => by
      rw [he, hr]
      cases hx : keyword table v with
      | none => rw [hx] at h; cases h
      | some x => rfl)
    (fun svg st v h => by
      rw [he, hr]
      cases hx : keyword table v with
      | none => exact .inr ⟨_, rfl⟩
      | some x => rw [hx] at h; cases h) hu hk
  refine ⟨fun {st st' v c c'} hr => ?_, h.keeps⟩
  have := h.sets hr
  split at this
  · rename_i hp; rw [if_pos hp]; exact orFail_ok this
  · rename_i hp; rw [if_neg hp]; exact this

/-- A keyword table as a chain of tests. -/
theorem keyword_cons {n : String} {x : α} {t : List (String × α)} (v : Str) :
    keyword ((n, x) :: t) v = if v = n.toList then some x else keyword t v := by
  unfold keyword
  rw [List.find?_cons]
  by_cases h : v = n.toList
  · rw [if_pos h]; simp [h]
  · rw [if_neg h]
    have : ¬ n.toList = v := fun e => h e.symm
    simp only [this, decide_false]

theorem keyword_nil (v : Str) : keyword ([] : List (String × α)) v = none := rfl

theorem caps_read (v : Str) : capOf v = keyword caps v := by
  unfold capOf caps; simp only [keyword_cons, keyword_nil]

theorem joins_read (v : Str) : joinOf v = keyword joins v := by
  unfold joinOf joins; simp only [keyword_cons, keyword_nil]

theorem gaps_read (v : Str) : gapOf v = keyword gaps v := by
  unfold gapOf gaps; simp only [keyword_cons, keyword_nil]

theorem rule_decides : Decides (F := F) "fill-rule" (·.useNonZeroWinding) (fun v => (keyword fillRules v).isSome)
    (fun _ v y => keyword fillRules v = some y) :=
  keyword_decides (read := keyword fillRules) (fun _ => rfl) (u := fun st x => { st with useNonZeroWinding := x })
    (fun svg st v => by
      show (if v = "evenodd".toList then _ else if v = "nonzero".toList then _ else _) = _
      unfold fillRules
      simp only [keyword_cons, keyword_nil]
      split
      · rfl
      · split <;> rfl) (fun _ _ => rfl) (fun h => h.winding)

theorem cap_decides : Decides (F := F) "stroke-linecap" (·.join.trailLineCap) (fun v => (keyword caps v).isSome)
    (fun _ v y => keyword caps v = some y) :=
  keyword_decides caps_read (u := fun st x => { st with join := { st.join with trailLineCap := x } }) (fun svg st v => by
      unfold styleEff; repeat rw [if_neg (by decide)]
      rw [if_pos rfl]; cases capOf v <;> rfl)
    (fun _ _ => rfl) (fun h => h.trailLineCap)

theorem leadCap_decides : Decides (F := F) "stroke-leadlinecap" (·.join.leadLineCap) (fun v => (keyword caps v).isSome)
    (fun _ v y => keyword caps v = some y) :=
  keyword_decides caps_read (u := fun st x => { st with join := { st.join with leadLineCap := x } }) (fun svg st v => by
      unfold styleEff; repeat rw [if_neg (by decide)]
      rw [if_pos rfl]; cases capOf v <;> rfl)
    (fun _ _ => rfl) (fun h => h.leadLineCap)

theorem join_decides : Decides (F := F) "stroke-linejoin" (·.join.lineJoin) (fun v => (keyword joins v).isSome)
    (fun _ v y => keyword joins v = some y) :=
  keyword_decides joins_read (u := fun st x => { st with join := { st.join with lineJoin := x } }) (fun svg st v => by
      unfold styleEff; repeat rw [if_neg (by decide)]
      rw [if_pos rfl]; cases joinOf v <;> rfl)
    (fun _ _ => rfl) (fun h => h.lineJoin)

theorem gap_decides : Decides (F := F) "stroke-linegap" (·.join.lineGap) (fun v => (keyword gaps v).isSome)
    (fun _ v y => keyword gaps v = some y) :=
  keyword_decides gaps_read (u := fun st x => { st with join := { st.join with lineGap := x } }) (fun svg st v => by
      unfold styleEff; repeat rw [if_neg (by decide)]
      rw [if_pos rfl]; cases gapOf v <;> rfl)
    (fun _ _ => rfl) (fun h => h.lineGap)

theorem fill_decides : Decides (F := F) "fill" (·.fillerColor) (fun _ => true)
    (fun _ v y => hasPrefix v "url(".toList = false → ∃ col, parseSVGColor v = .ok col ∧ y = col.map .plain) where
  sets := fun h hn => fill_plain hn h
  keeps := fun hk h => (readStyleAttr_only h).filler hk

theorem stroke_decides : Decides (F := F) "stroke" (·.linerColor) (fun _ => true)
    (fun _ v y => hasPrefix v "url(".toList = false → ∃ col, parseSVGColor v = .ok col ∧ y = col.map .plain) where
  sets := fun h hn => stroke_plain hn h
  keeps := fun hk h => (readStyleAttr_only h).liner hk

/-! ### The texts -/

theorem lengthText_read {vb : Bounds ℝ} {ref : PercRef} {v : Str} {x : ℝ} (h : LengthText vb ref v x) : resolveUnit vb v ref = .ok x := by
  cases h with
  | unit n hn hu hw hw' hw'' => exact (C03_units_exact n hn hu hw hw' hw'' vb ref).2
  | percent n hn hw hw' hw'' =>
    obtain ⟨h1, h2, h3⟩ := C04_percent n hn hw hw' hw'' vb
    cases ref
    · exact h1
    · exact h2
    · exact h3

/-- Without a percent sign the view box does not matter. -/
theorem lengthText_box {vb : Bounds ℝ} {ref : PercRef} {v : Str} {x : ℝ} (h : LengthText vb ref v x) (hp : '%' ∉ v) (vb' : Bounds ℝ) :
    LengthText vb' ref v x := by
  cases h with
  | unit n hn hu hw hw' hw'' => exact .unit n hn hu hw hw' hw''
  | percent n hn hw hw' hw'' => exact absurd (by simp) hp

theorem paintText_read {v : Str} {c : Option Color} (h : PaintText v c) : parseSVGColor v = .ok c ∧ hasPrefix v "url(".toList = false := by
  cases h with
  | hex h1 h2 h3 h4 h5 h6 => exact ⟨C35_six h1 h2 h3 h4 h5 h6, rfl⟩
  | short h1 h2 h3 =>
    refine ⟨?_, rfl⟩
    rw [C35_three (hexDigit_val h1).2.1 (hexDigit_val h2).2.1 (hexDigit_val h3).2.1, C35_six h1 h1 h2 h2 h3 h3]
    congr 3 <;> omega
  | rgb hx hy hz rx ry rz hr hg hb =>
    obtain ⟨r', g', b', h, e1, e2, e3⟩ := C36_rgb_partial hx hy hz rx ry rz
    have a1 := Int.ofNat.inj (hr.trans e1.symm)
    have a2 := Int.ofNat.inj (hg.trans e2.symm)
    have a3 := Int.ofNat.inj (hb.trans e3.symm)
    subst a1 a2 a3
    exact ⟨h, rfl⟩
  | name hv hc =>
    refine ⟨parse_name hv hc, ?_⟩
    obtain ⟨hl, -, hu, -⟩ := GoEnv.colorName_ok _ _ hc
    obtain ⟨-, rfl⟩ := hv
    by_contra hh
    rw [Bool.not_eq_false, hasPrefix, List.isPrefixOf_iff_prefix] at hh
    obtain ⟨t, rfl⟩ := hh
    simp at hl
  | none hv =>
    refine ⟨parse_none hv, ?_⟩
    by_contra hh
    rw [Bool.not_eq_false, hasPrefix, List.isPrefixOf_iff_prefix] at hh
    obtain ⟨t, rfl⟩ := hh
    have := hv.2
    simp at this

/-! ### The view box of the document -/

theorem readTokens_box {fuel : Nat} : ∀ (ts : List Token) (_ : ∀ attrs, Token.start "svg".toList attrs ∉ ts) {c c' : Cursor F} {u : Unit},
    DefsQ NoSvgDef c → readTokens fuel ts c = (.ok u, c') → c'.svg.viewBox = c.svg.viewBox
  | [], _, c, c', u, _, h => by cases h; rfl
  | t :: ts, hn, c, c', u, hd, h => by
    have htq : TokQ NoSvgDef t := by
      cases t with
      | start n a => intro h; exact hn a (by rw [← show n = "svg".toList from h]; exact List.mem_cons_self)
      | _ => trivial
    have h1 := readToken_box fuel htq hd
    have h2 := readToken_defsQ (by show "endg".toList ≠ "svg".toList; decide) fuel htq hd
    rw [readTokens_cons, SM.bind_run] at h
    rcases hr : readToken fuel t c with ⟨r, c1⟩
    rw [hr] at h h1 h2
    cases r with
    | ok v => exact (readTokens_box ts (fun a h => hn a (List.mem_cons_of_mem _ h)) h2 h).trans h1
    | err e => cases h
    | panic s => cases h
    | diverge => cases h

/-- The view box of the drawing is that of the root, when there is no other `svg`. -/
theorem within_box {root e : Elem} {rel : List Elem} {lead body post : List Token} (hw : Within root rel e lead body)
    (hpost : ∀ attrs, Token.start "svg".toList attrs ∉ post) {fuel : Nat} {m : ErrorMode} {s : Svg F} {l : List Msg}
    (h : parse (F := F) fuel m (lead ++ .start root.name root.attrs :: (body ++ .start e.name e.attrs :: post)) .eof = .done (some s) none l)
    {c0 : Cursor F} (h0 : readToken fuel (.start root.name root.attrs) (initCursor (F := F) m) = (.ok (), c0)) :
    s.viewBox = c0.svg.viewBox := by
  obtain ⟨cf, hr, rfl⟩ := parse_ok h
  rw [readTokens_append, SM.bind_run, noTags_run (F := F) fuel m lead hw.prolog] at hr
  dsimp only at hr
  rw [readTokens_cons, SM.bind_run, h0] at hr
  dsimp only at hr
  have d1 : DefsQ NoSvgDef c0 := by
    have := start_outside_defsQ fuel root.name root.attrs (c := initCursor (F := F) m) rfl (defsQ_init NoSvgDef m)
    rwa [h0] at this
  refine readTokens_box _ (fun a hm => ?_) d1 hr
  have hs := hw.noSvg a
  simp only [List.mem_append, List.mem_cons, List.not_mem_nil, or_false, not_or] at hs
  simp only [List.mem_append, List.mem_cons] at hm
  rcases hm with hm | hm | hm
  · exact hs.1 hm
  · exact hs.2 hm
  · exact hpost a hm

end GoSvg
