import Verif.Lemmas.Sized
import Verif.Lemmas.SizeKept
import Verif.Spec.Sized
import Verif.Props.RootBox
import Verif.Props.PlainGroup
import Verif.Props.Styles

/-! C96: the width and the height of a picture with a view box. -/

set_option linter.unusedSectionVars false

namespace GoSvg

open Spec

section Generic

variable {F : Type} [GoFloat F] [GoEnv]

open SM (get modify throw lift panic diverge forEach)

theorem finish_sizeless (seen : Bool) (fin : StreamEnd) (r : Res Unit) (c : Cursor F) (k l : Str × Str) :
    sizeless (finish seen fin (r, c.sized k)) = sizeless (finish seen fin (r, c.sized l)) := by
  cases r <;> cases fin <;> cases seen <;> rfl

theorem size_unknown {a : Attr} (h : IsSize a = true) : Known "g".toList a = false := by
  obtain ⟨n, v⟩ := a
  unfold IsSize at h
  simp only [Bool.or_eq_true, decide_eq_true_eq] at h
  unfold Known Styling
  rcases h with rfl | rfl
  · have : toLower "width".toList = "width".toList := by rw [toLower_ascii_str (by decide)]; decide
    have h2 : "width".toList.takeWhile (fun c => decide (c ≠ ':')) = "width".toList := by decide
    simp only [h2, this]
    change (decide ("width".toList = "id".toList) || decide ("width".toList = "style".toList) || (decide ("width".toList = "style".toList) ||
      presentation.any fun n => decide (n.toList = trimSpace "width".toList)) || (ownNames "g".toList).any fun n => decide (n.toList = "width".toList)) = false
    decide
  · have : toLower "height".toList = "height".toList := by rw [toLower_ascii_str (by decide)]; decide
    have h2 : "height".toList.takeWhile (fun c => decide (c ≠ ':')) = "height".toList := by decide
    simp only [h2, this]
    change (decide ("height".toList = "id".toList) || decide ("height".toList = "style".toList) || (decide ("height".toList = "style".toList) ||
      presentation.any fun n => decide (n.toList = trimSpace "height".toList)) || (ownNames "g".toList).any fun n => decide (n.toList = "height".toList)) = false
    decide

theorem pushStyle_size {a1 a2 : List Attr} (h : a1.filter (fun a => !IsSize a) = a2.filter (fun a => !IsSize a)) :
    (pushStyle a1 : CM F Unit) = pushStyle a2 := by
  have e : ∀ as : List Attr, bareAttrs "g".toList (as.filter (fun a => !IsSize a)) = bareAttrs "g".toList as := by
    intro as
    unfold bareAttrs
    rw [List.filter_filter]
    refine List.filter_congr fun a _ => ?_
    cases hs : IsSize a with
    | true => rw [size_unknown hs]; rfl
    | false => cases Known "g".toList a <;> rfl
  rw [← pushStyle_bare "g".toList a1, ← pushStyle_bare "g".toList a2, ← e a1, ← e a2, h]

/-- The points read last and the view box, as they are when the attributes of a root have been read. -/
def boxed (vb : Bounds F) (c : Cursor F) : Cursor F :=
  { c with pc := { c.pc with points := [vb.x, vb.y, vb.w, vb.h] }, svg := { c.svg with viewBox := vb } }

theorem svgLoop_good {vb : Bounds F} : ∀ {attrs : List Attr},
    (∀ a ∈ attrs, a.name = "viewBox".toList → WritesNumbers [vb.x, vb.y, vb.w, vb.h] a.value) →
    (∀ a ∈ attrs, IsSize a = true → ∃ x : F, parseBasicFloat a.value = .ok x) → ∀ (wh : F × F) (c : Cursor F),
    ∃ (wh' : F × F) (k : Str × Str), attrLoop svgAttr wh attrs c =
      (.ok wh', (if attrs.any (fun a => decide (a.name = "viewBox".toList)) then boxed vb c else c).sized k)
  | [], _, _, wh, c => ⟨wh, (c.svg.width, c.svg.height), rfl⟩
  | a :: as, h1, h2, wh, c => by
    have ih := svgLoop_good (attrs := as) (fun a h => h1 a (List.mem_cons_of_mem _ h)) (fun a h => h2 a (List.mem_cons_of_mem _ h))
    rw [attrLoop, SM.bind_run]
    by_cases hb : a.name = "viewBox".toList
    · have hs : svgAttr wh a c = (.ok wh, boxed vb c) := by
        unfold svgAttr
        rw [if_pos hb, svgBox, writesNumbers_get (h1 a List.mem_cons_self hb)]
        rfl
      rw [hs]
      obtain ⟨wh', k, e⟩ := ih wh (boxed vb c)
      refine ⟨wh', k, ?_⟩
      dsimp only
      rw [e, List.any_cons, decide_eq_true hb, Bool.true_or, if_pos rfl]
      split <;> rfl
    · have hs : ∃ wh1 k1, svgAttr wh a c = (.ok wh1, c.sized k1) := by
        unfold svgAttr
        rw [if_neg hb]
        by_cases hw : a.name = "width".toList
        · obtain ⟨x, hx⟩ := h2 a List.mem_cons_self (by unfold IsSize; rw [decide_eq_true hw]; rfl)
          rw [if_pos hw]
          refine ⟨(x, wh.2), (a.value, c.svg.height), ?_⟩
          rw [SM.bind_run, SM.modify_run]
          dsimp only
          rw [hx]
          rfl
        · rw [if_neg hw]
          by_cases hh : a.name = "height".toList
          · obtain ⟨x, hx⟩ := h2 a List.mem_cons_self (by unfold IsSize; rw [decide_eq_true hh, Bool.or_true])
            rw [if_pos hh]
            refine ⟨(wh.1, x), (c.svg.width, a.value), ?_⟩
            rw [SM.bind_run, SM.modify_run]
            dsimp only
            rw [hx]
            rfl
          · rw [if_neg hh]
            exact ⟨wh, (c.svg.width, c.svg.height), rfl⟩
      obtain ⟨wh1, k1, hs⟩ := hs
      rw [hs]
      obtain ⟨wh', k, e⟩ := ih wh1 (c.sized k1)
      refine ⟨wh', k, ?_⟩
      dsimp only
      rw [e, List.any_cons, decide_eq_false hb, Bool.false_or]
      split <;> rfl

theorem svgRoot_good {vb : Bounds F} {attrs : List Attr} (hd : Distinct attrs) {v : Str} (hg : Given attrs "viewBox" v)
    (hv : WritesNumbers [vb.x, vb.y, vb.w, vb.h] v) (hw : GoFloat.eq vb.w (num 0) = false) (hh : GoFloat.eq vb.h (num 0) = false)
    (hs : ∀ a ∈ attrs, IsSize a = true → ∃ x : F, parseBasicFloat a.value = .ok x) (fuel : Nat) (c : Cursor F)
    (hc : c.inDefs = false) (hp : c.pc.path = []) :
    ∃ k, readStartElement fuel "svg".toList attrs c = (.ok (), (boxed vb c).sized k) := by
  have h1 : ∀ a ∈ attrs, a.name = "viewBox".toList → WritesNumbers [vb.x, vb.y, vb.w, vb.h] a.value :=
    fun a ha hn => by rw [distinct_unique hd ha hg hn]; exact hv
  have hany : attrs.any (fun a => decide (a.name = "viewBox".toList)) = true := List.any_eq_true.2 ⟨_, hg, by simp⟩
  obtain ⟨wh, k, e⟩ := svgLoop_good h1 hs (num 0, num 0) { c with svg := { c.svg with viewBox := ⟨num 0, num 0, num 0, num 0⟩ } }
  refine ⟨k, ?_⟩
  unfold readStartElement
  dsimp only
  rw [if_neg (by rintro ⟨h, -⟩; rw [hc] at h; cases h)]
  have : drawFuncs fuel (useF fuel) "svg".toList = some (svgF : List Attr → CM F Unit) := rfl
  rw [this]
  dsimp only
  unfold svgF
  rw [SM.bind_run, SM.modify_run]
  dsimp only
  rw [SM.bind_run, e, hany, if_pos rfl]
  dsimp only
  rw [SM.modify_run]
  dsimp only
  have he : ∀ d : Cursor F, d.pc.path = [] → emitPath d = (.ok (), d) := by intro d h; unfold emitPath; rw [h]
  rw [he]
  rotate_left
  · exact hp
  dsimp only [boxed, Cursor.sized]
  simp only [hw, hh, Bool.false_eq_true, if_false]

/-- C96, any document that starts with an svg element with a view box that is not empty, in any mode and however it ends: with another width and height,
or without them, the result is the same but for the width and the height, with the same error and the same warnings. -/
theorem C96_size {fuel : Nat} {m : ErrorMode} {lead rest : List Token} {a1 a2 : List Attr} {fin : StreamEnd} (hl : NoTags lead)
    (hsame : a1.filter (fun a => !IsSize a) = a2.filter (fun a => !IsSize a)) (d1 : Distinct a1) (d2 : Distinct a2)
    {v : Str} (hg : Given a1 "viewBox" v) {vb : Bounds F} (hv : WritesNumbers [vb.x, vb.y, vb.w, vb.h] v)
    (hw : GoFloat.eq vb.w (num 0) = false) (hh : GoFloat.eq vb.h (num 0) = false)
    (hs1 : ∀ a ∈ a1, IsSize a = true → ∃ x : F, parseBasicFloat a.value = .ok x)
    (hs2 : ∀ a ∈ a2, IsSize a = true → ∃ x : F, parseBasicFloat a.value = .ok x) :
    sizeless (parse (F := F) fuel m (lead ++ .start "svg".toList a1 :: rest) fin) =
      sizeless (parse fuel m (lead ++ .start "svg".toList a2 :: rest) fin) := by
  have hg2 : Given a2 "viewBox" v := by
    have : (⟨"viewBox".toList, v⟩ : Attr) ∈ a1.filter (fun a => !IsSize a) := List.mem_filter.2 ⟨hg, rfl⟩
    rw [hsame] at this
    exact (List.mem_filter.1 this).1
  have hany : ∀ as : List Attr, (lead ++ .start "svg".toList as :: rest).any Token.isStart = true := by
    intro as
    rw [List.any_append, List.any_cons, show Token.isStart (.start "svg".toList as) = true from rfl, Bool.true_or, Bool.or_true]
  rw [parse_finish, parse_finish, hany, hany, readTokens_append, readTokens_append, SM.bind_run, SM.bind_run, noTags_run fuel m lead hl]
  dsimp only
  rw [readTokens_cons, readTokens_cons, SM.bind_run, SM.bind_run, readToken, readToken, SM.bind_run, SM.bind_run, pushStyle_size hsame]
  have hk : (pushStyle a2 (initCursor (F := F) m)).2.inDefs = false ∧ (pushStyle a2 (initCursor (F := F) m)).2.pc.path = [] := by
    rcases pushStyle_frame a2 (initCursor (F := F) m) with ⟨top, rest, st, c1, -, -, h, h'⟩ | ⟨-, h⟩
    · rw [h', h.eq]; exact ⟨rfl, rfl⟩
    · rw [h.eq]; exact ⟨rfl, rfl⟩
  rcases hp : pushStyle a2 (initCursor (F := F) m) with ⟨r, c⟩
  rw [hp] at hk
  cases r with
  | err e => rfl
  | panic e => rfl
  | diverge => rfl
  | ok u =>
    dsimp only
    obtain ⟨k1, e1⟩ := svgRoot_good d1 hg hv hw hh hs1 fuel c hk.1 hk.2
    obtain ⟨k2, e2⟩ := svgRoot_good d2 hg2 hv hw hh hs2 fuel c hk.1 hk.2
    rw [e1, e2]
    dsimp only
    obtain ⟨l1, f1⟩ := readTokens_sizeFree fuel rest (boxed vb c) k1
    obtain ⟨l2, f2⟩ := readTokens_sizeFree fuel rest (boxed vb c) k2
    rw [f1, f2]
    exact finish_sizeless _ _ _ _ _ _

/-! ### The strings -/

theorem svgAttr_texts {wh wh' : F × F} {a : Attr} {c c' : Cursor F} (h : svgAttr wh a c = (.ok wh', c')) :
    (c'.svg.width = if a.name = "width".toList then a.value else c.svg.width) ∧
      c'.svg.height = if a.name = "height".toList then a.value else c.svg.height := by
  unfold svgAttr at h
  by_cases hb : a.name = "viewBox".toList
  · rw [if_pos hb] at h
    rw [hb, if_neg (by decide), if_neg (by decide)]
    unfold svgBox at h
    dsimp only at h
    split at h
    · split at h <;> cases h
      exact ⟨rfl, rfl⟩
    · cases h
  · rw [if_neg hb] at h
    by_cases hw : a.name = "width".toList
    · rw [if_pos hw, SM.bind_run, SM.modify_run] at h
      dsimp only at h
      obtain ⟨_, c1, h1, h2⟩ := bind_ok h
      rw [SM.lift_run] at h1
      obtain rfl := (Prod.mk.inj h1).2
      cases h2
      rw [if_pos hw, hw, if_neg (by decide)]
      exact ⟨rfl, rfl⟩
    · rw [if_neg hw] at h
      by_cases hh : a.name = "height".toList
      · rw [if_pos hh, SM.bind_run, SM.modify_run] at h
        dsimp only at h
        obtain ⟨_, c1, h1, h2⟩ := bind_ok h
        rw [SM.lift_run] at h1
        obtain rfl := (Prod.mk.inj h1).2
        cases h2
        rw [if_neg hw, if_pos hh]
        exact ⟨rfl, rfl⟩
      · rw [if_neg hh] at h
        cases h
        rw [if_neg hw, if_neg hh]
        exact ⟨rfl, rfl⟩

/-- A text that one attribute sets and the others leave alone. -/
theorem attrLoop_text {β : Type} {step : β → Attr → CM F β} {sel : Cursor F → Str} {n : String}
    (hstep : ∀ {b b' : β} {a : Attr} {c c' : Cursor F}, step b a c = (.ok b', c') → sel c' = if a.name = n.toList then a.value else sel c) :
    ∀ {attrs : List Attr} {b b' : β} {c c' : Cursor F}, attrLoop step b attrs c = (.ok b', c') → Distinct attrs →
      (∀ v, Given attrs n v → sel c' = v) ∧ ((∀ v, ¬ Given attrs n v) → sel c' = sel c)
  | [], b, b', c, c', h, _ => by cases h; exact ⟨(fun v h => nomatch h), fun _ => rfl⟩
  | a :: as, b, b', c, c', h, hd => by
    rw [attrLoop] at h
    obtain ⟨b1, c1, h1, h2⟩ := bind_ok h
    have hs := hstep h1
    have hd' : a.name ∉ as.map Attr.name ∧ (as.map Attr.name).Nodup := List.nodup_cons.1 hd
    obtain ⟨i1, i2⟩ := attrLoop_text hstep h2 hd'.2
    by_cases hn : a.name = n.toList
    · rw [if_pos hn] at hs
      have hno : ∀ v, ¬ Given as n v := fun v hv => hd'.1 (List.mem_map.2 ⟨_, hv, hn.symm⟩)
      refine ⟨fun v hv => ?_, fun hno' => absurd (List.mem_cons.2 (.inl (by rw [← hn]))) (hno' a.value)⟩
      rcases List.mem_cons.1 hv with e | e
      · rw [i2 hno, hs, ← e]
      · exact absurd e (hno v)
    · rw [if_neg hn] at hs
      refine ⟨fun v hv => ?_, fun hno => ?_⟩
      · rcases List.mem_cons.1 hv with e | e
        · exact absurd (by rw [← e]) hn
        · exact i1 v e
      · rw [i2 fun v hv => hno v (List.mem_cons_of_mem _ hv), hs]

theorem readTokens_wide {fuel : Nat} : ∀ (ts : List Token) (_ : ∀ attrs, Token.start "svg".toList attrs ∉ ts) {c c' : Cursor F} {u : Unit},
    DefsQ NoSvgDef c → readTokens fuel ts c = (.ok u, c') → WideR c c'
  | [], _, c, c', u, _, h => by cases h; rfl
  | t :: ts, hn, c, c', u, hd, h => by
    have htq : TokQ NoSvgDef t := by
      cases t with
      | start n a => intro h; exact hn a (by rw [← show n = "svg".toList from h]; exact List.mem_cons_self)
      | _ => trivial
    have h1 := readToken_wide fuel htq hd
    have h2 := readToken_defsQ (by show "endg".toList ≠ "svg".toList; decide) fuel htq hd
    rw [readTokens_cons] at h
    obtain ⟨_, c1, k1, k2⟩ := bind_ok h
    rw [k1] at h1 h2
    exact wideR_pre.trans h1 (readTokens_wide ts (fun a h => hn a (List.mem_cons_of_mem _ h)) h2 k2)

/-- C96 for the strings, any document with one svg element that is parsed without an error: the width and the height of the drawing are what is written in
the attributes of the root, and empty without them. -/
theorem C96_strings {fuel : Nat} {m : ErrorMode} {lead rest : List Token} {attrs : List Attr} {s : Svg F} {l : List Msg} (hl : NoTags lead)
    (hn : ∀ a, Token.start "svg".toList a ∉ rest)
    (h : parse (F := F) fuel m (lead ++ .start "svg".toList attrs :: rest) .eof = .done (some s) none l) (hd : Distinct attrs) :
    TextAttr attrs "width" s.width ∧ TextAttr attrs "height" s.height := by
  obtain ⟨cf, hr, rfl⟩ := parse_ok h
  obtain ⟨c, h1, h2⟩ := read_split hr
  rw [noTags_run (F := F) fuel m lead hl] at h1
  cases h1
  rw [readTokens_cons] at h2
  obtain ⟨_, c0, q1, q2⟩ := bind_ok h2
  have d1 : DefsQ NoSvgDef c0 := by
    have := start_outside_defsQ fuel "svg".toList attrs (c := initCursor (F := F) m) rfl (defsQ_init NoSvgDef m)
    rwa [q1] at this
  obtain ⟨ew, eh⟩ := Prod.mk.inj (readTokens_wide rest hn d1 q2)
  rw [ew, eh]
  rw [readToken] at q1
  obtain ⟨_, c1, k1, k2⟩ := bind_ok q1
  have hs := pushStyle_same k1
  have hwide : WideR (initCursor (F := F) m) c1 := by
    have := pushStyle_wide attrs (initCursor (F := F) m)
    rwa [k1] at this
  obtain ⟨iw, ih⟩ := Prod.mk.inj hwide
  have hf : ∃ c2, svgF attrs c1 = (.ok (), c2) ∧ WideR c2 c0 := by
    unfold readStartElement at k2
    dsimp only at k2
    rw [if_neg (by rintro ⟨h, -⟩; rw [hs.inDefs] at h; cases h)] at k2
    have : drawFuncs fuel (useF fuel) "svg".toList = some (svgF : List Attr → CM F Unit) := rfl
    rw [this] at k2
    dsimp only at k2
    rcases hg : svgF attrs c1 with ⟨r, c2⟩
    rw [hg] at k2
    have he : ∀ (d d' : Cursor F) (r : Res Unit), emitPath d = (r, d') → WideR d d' := by
      intro d d' r h
      unfold emitPath at h
      dsimp only at h
      split at h
      · cases h; rfl
      · split at h <;> cases h <;> rfl
    cases r with
    | ok u =>
      refine ⟨c2, rfl, ?_⟩
      dsimp only at k2
      rcases hE : emitPath c2 with ⟨r, c3⟩
      rw [hE] at k2
      cases r with
      | ok u => cases k2; exact he _ _ _ hE
      | _ => cases k2
    | err e =>
      dsimp only at k2
      rcases hE : emitPath c2 with ⟨r, c3⟩
      rw [hE] at k2
      cases r <;> cases k2
    | panic e => cases k2
    | diverge => cases k2
  obtain ⟨c2, hf, hw2⟩ := hf
  obtain ⟨jw, jh⟩ := Prod.mk.inj hw2
  rw [jw, jh]
  unfold svgF at hf
  rw [SM.bind_run, SM.modify_run] at hf
  dsimp only at hf
  obtain ⟨wh, c3, f1, f2⟩ := bind_ok hf
  rw [SM.modify_run] at f2
  cases f2
  obtain ⟨w1, w2⟩ := attrLoop_text (sel := fun c => c.svg.width) (n := "width") (fun h => (svgAttr_texts h).1) f1 hd
  obtain ⟨g1, g2⟩ := attrLoop_text (sel := fun c => c.svg.height) (n := "height") (fun h => (svgAttr_texts h).2) f1 hd
  constructor
  · by_cases hgv : ∃ v, Given attrs "width" v
    · obtain ⟨v, hv⟩ := hgv
      exact .inl (by rw [show _ = v from w1 v hv]; exact hv)
    · exact .inr ⟨fun v hv => hgv ⟨v, hv⟩, (w2 fun v hv => hgv ⟨v, hv⟩).trans iw⟩
  · by_cases hgv : ∃ v, Given attrs "height" v
    · obtain ⟨v, hv⟩ := hgv
      exact .inl (by rw [show _ = v from g1 v hv]; exact hv)
    · exact .inr ⟨fun v hv => hgv ⟨v, hv⟩, (g2 fun v hv => hgv ⟨v, hv⟩).trans ih⟩

end Generic

section Example

attribute [local instance] asciiEnv
attribute [local instance] dummyLibm

/-- `<svg viewBox="1 2 3 4">` with further attributes, and a rectangle. -/
def sizedDoc (size : List (String × String)) : List Token :=
  [.other] ++ .start "svg".toList (attrsOf ([("viewBox", "1 2 3 4")] ++ size)) ::
    (elem "rect" [("width", "50%"), ("height", "1")] [] ++ [.stop "svg".toList])

/-- The drawing, and its width as it is written. -/
def drawnAndWide (ts : List Token) : Option (List (SvgPath F64) × Str) :=
  match parse (F := F64) 9 .strict ts .eof with
  | .done (some s) none [] => some (s.svgPaths, s.width)
  | _ => none

theorem parseBasicFloat_six : parseBasicFloat "6".toList = .ok (6 : ℝ) := by
  have hq : (GoFloat.parse (findUnit "6".toList).2 : Option ℝ) = some ((6 : ℚ) : ℝ) := by
    change (match parseLit (findUnit "6".toList).2 with
      | some (.fin neg q) => some (if neg then -(q : ℝ) else (q : ℝ))
      | _ => none) = _
    rw [parseLit_dec (q := 6) (neg := false) (by decide +kernel)]; rfl
  have hu : (findUnit "6".toList).1 = .px := by decide
  simp only [parseBasicFloat, parseUnit, hq, hu, toPx]
  norm_num

set_option maxRecDepth 100000 in
/-- The hypotheses hold of a picture with a width and of the same without. -/
example : sizeless (parse (F := ℝ) 9 .strict (sizedDoc [("width", "6")]) .eof) = sizeless (parse 9 .strict (sizedDoc []) .eof) := by
  have hb := boxAttr_nat (attrs := attrsOf [("viewBox", "1 2 3 4")]) (v := "1 2 3 4".toList) (a := 1) (b := 2) (c := 3) (d := 4) (by decide)
    ⟨[int "" "1", int " " "2", int " " "3", int " " "4"], []⟩ (by decide +kernel) (by decide +kernel) (by decide +kernel)
  obtain ⟨v, hg, hv⟩ | ⟨h, -⟩ := hb
  · have hg1 : Given (attrsOf ([("viewBox", "1 2 3 4")] ++ [("width", "6")])) "viewBox" v := by
      have : (⟨"viewBox".toList, v⟩ : Attr) ∈ attrsOf [("viewBox", "1 2 3 4")] := hg
      exact List.mem_cons.2 (.inl (List.mem_singleton.1 this))
    refine C96_size (v := v) (vb := ⟨((1 : ℚ) : ℝ), ((2 : ℚ) : ℝ), ((3 : ℚ) : ℝ), ((4 : ℚ) : ℝ)⟩) ?_ (by decide +kernel) (by unfold Distinct; decide +kernel)
      (by unfold Distinct; decide +kernel) hg1 hv ?_ ?_ ?_ ?_
    · intro t ht
      rw [List.mem_singleton.1 ht]
      exact ⟨(fun n a h => nomatch h), (fun n h => nomatch h)⟩
    · change decide (((3 : ℚ) : ℝ) = _) = false
      simp
    · change decide (((4 : ℚ) : ℝ) = _) = false
      simp
    · intro a ha hs
      simp only [attrsOf, List.map, List.cons_append, List.nil_append, List.mem_cons, List.not_mem_nil, or_false] at ha
      rcases ha with rfl | rfl
      · exact absurd hs (by decide)
      · exact ⟨6, parseBasicFloat_six⟩
    · intro a ha hs
      simp only [attrsOf, List.map, List.append_nil, List.mem_cons, List.not_mem_nil, or_false] at ha
      rw [ha] at hs
      exact absurd hs (by decide)
  · exact absurd (by decide : Given (attrsOf [("viewBox", "1 2 3 4")]) "viewBox" "1 2 3 4".toList) (h _)

set_option maxRecDepth 100000 in
/-- In binary64: one path, the same with and without a size, and the width is the one of the attribute. -/
theorem sized_example :
    (drawnAndWide (sizedDoc [])).map (·.1.length) = some 1 ∧
    (drawnAndWide (sizedDoc [("width", "6cm"), ("height", "100%")])).map (·.2) = some "6cm".toList ∧
    (drawnAndWide (sizedDoc [("width", "6cm"), ("height", "100%")])).map (·.1) = (drawnAndWide (sizedDoc [])).map (·.1) := by
  decide +kernel

set_option maxRecDepth 100000 in
/-- The restriction on the values is needed: with a view box the width is not used, but `width="auto"` is an error. -/
theorem C96_auto_false : (drawnAndWide (sizedDoc [("width", "auto")])).isSome = false ∧ (drawnAndWide (sizedDoc [])).isSome = true := by
  decide +kernel

/-- An svg element in an svg element. -/
def nestedDoc : List Token := elem "svg" [("viewBox", "1 2 3 4"), ("width", "6")] (elem "svg" [("viewBox", "0 0 9 9"), ("width", "5")] [])

set_option maxRecDepth 100000 in
/-- The restriction to one svg element is needed: the width and the view box of an inner svg element become those of the drawing. -/
theorem C96_nested_false :
    (match parse (F := F64) 9 .strict nestedDoc .eof with
      | .done (some s) none [] => (decide (s.width = "5".toList) && GoFloat.eq s.viewBox.w (num 9) && GoFloat.eq s.viewBox.x (num 0))
      | _ => false) = true := by
  decide +kernel

end Example

end GoSvg
