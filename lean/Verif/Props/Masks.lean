import Verif.Lemmas.MaskRun
import Verif.Lemmas.DocsNest
import Verif.Lemmas.Docs

/-! Property theorems: C45 (where the content of masks goes). -/

set_option linter.unusedSectionVars false

namespace GoSvg

open Spec

variable {F : Type} [GoFloat F] [GoEnv]

open SM (get modify throw lift panic diverge forEach)

theorem parse_eof_ok {fuel : Nat} {m : ErrorMode} {ts : List Token} {s : Svg F} {l : List Msg}
    (h : parse (F := F) fuel m ts .eof = .done (some s) none l) :
    ∃ c, readTokens fuel ts (initCursor (F := F) m) = (.ok (), c) ∧ c.svg = s ∧ c.pc.log = l := by
  unfold parse at h
  rcases hr : readTokens fuel ts (initCursor (F := F) m) with ⟨r, c⟩
  rw [hr] at h
  cases r with
  | ok u => dsimp only at h; split at h <;> cases h; exact ⟨c, rfl, rfl, rfl⟩
  | err e => cases h
  | panic e => cases h
  | diverge => cases h

theorem read_split {fuel : Nat} {ts us : List Token} {c c' : Cursor F} (h : readTokens fuel (ts ++ us) c = (.ok (), c')) :
    ∃ c1, readTokens fuel ts c = (.ok (), c1) ∧ readTokens fuel us c1 = (.ok (), c') := by
  rw [readTokens_append, SM.bind_run] at h
  rcases hr : readTokens fuel ts c with ⟨r, c1⟩
  rw [hr] at h
  cases r with
  | ok u => exact ⟨c1, rfl, h⟩
  | err e => cases h
  | panic e => cases h
  | diverge => cases h

theorem read_join {fuel : Nat} {ts us : List Token} {c c1 : Cursor F} {p : Res Unit × Cursor F} (h : readTokens fuel ts c = (.ok (), c1))
    (h' : readTokens fuel us c1 = p) : readTokens fuel (ts ++ us) c = p := by
  rw [readTokens_append, SM.bind_run, h]; exact h'

theorem parse_cut {fuel : Nat} {m : ErrorMode} {ts : List Token} {c : Cursor F}
    (h : readTokens fuel ts (initCursor (F := F) m) = (.ok (), c)) : parse (F := F) fuel m ts (.error 0) = .done (some c.svg) (some (.reader 0)) c.pc.log := by
  unfold parse; rw [h]

/-- What a mask element does. -/
theorem mask_read {fuel : Nat} {m : ErrorMode} {pre body post : List Token} {attrs : List Attr} {ch : List Elem} {c c' : Cursor F}
    (ht : Tidy (pre ++ element "mask" attrs body ++ post)) (hch : openFrom [] pre = some ch) (hd : inside "defs" ch = false)
    (hb : openFrom [] body = some []) (hr : readTokens fuel pre (initCursor m) = (.ok (), c))
    (hr' : readTokens fuel (element "mask" attrs body) c = (.ok (), c')) :
    ∃ mk : SvgMask F, MaskOf fuel m pre attrs body mk ∧ c'.svg.svgMasks = c.svg.svgMasks.insert mk.id mk ∧ c'.svg.svgPaths = c.svg.svgPaths ∧
      ∃ d', readTokens fuel (element "g" attrs body) c = (.ok (), d') ∧ Beside c.svg.svgPaths mk.svgPaths c' d' := by
  obtain ⟨mk, h1, h2, h3, h4, h5, h6⟩ := mask_element ht hch hd hb hr hr'
  refine ⟨mk, ⟨?_, h1⟩, h3, h2, _, h6, [], c.svg.svgMasks, by rw [h2, List.append_nil], by rw [List.append_nil, h4, h5]⟩
  rw [parse_cut (read_join hr h6), parse_cut hr]
  rfl

/-- C45, the content of a mask, partial: let a tidy document with a mask element outside `defs` be read without an error. When the
mask has ended, a mask is registered under its `id` (`MaskOf.name`), and every other name has the mask it had before. The paths
of the mask are exactly those the same content gives in a group (`MaskOf.paths`), in document order. They are not among the
paths of the document: with the group in place of the mask element the whole document is read with the same diagnostics and
gives the same paths and these ones. Missing: documents that are not tidy, see `C45_nested_mask_false`, `C45_defs_false` and
`C45_use_false`. -/
theorem C45_collected_partial {fuel : Nat} {m : ErrorMode} {pre body post : List Token} {attrs : List Attr} {s : Svg F} {l : List Msg}
    (ht : Tidy (pre ++ element "mask" attrs body ++ post)) {ch : List Elem} (hch : openFrom [] pre = some ch)
    (hd : inside "defs" ch = false) (hb : openFrom [] body = some [])
    (h : parse fuel m (pre ++ element "mask" attrs body ++ post) .eof = .done (some s) none l) :
    ∃ mk : SvgMask F, MaskOf fuel m pre attrs body mk ∧
      Outcome.mask (parse fuel m (pre ++ element "mask" attrs body) (.error 0)) mk.id = some mk ∧
      (∀ id, id ≠ mk.id → Outcome.mask (parse fuel m (pre ++ element "mask" attrs body) (.error 0)) id =
        Outcome.mask (parse (F := F) fuel m pre (.error 0)) id) ∧
      Outcome.paths (parse fuel m (pre ++ element "mask" attrs body) (.error 0)) = Outcome.paths (parse (F := F) fuel m pre (.error 0)) ∧
      ∃ rest s', s.svgPaths = Outcome.paths (parse (F := F) fuel m pre (.error 0)) ++ rest ∧
        parse fuel m (pre ++ element "g" attrs body ++ post) .eof = .done (some s') none l ∧
        s'.svgPaths = Outcome.paths (parse (F := F) fuel m pre (.error 0)) ++ mk.svgPaths ++ rest := by
  obtain ⟨c2, hr, rfl, rfl⟩ := parse_eof_ok h
  obtain ⟨c1, hr1, hr2⟩ := read_split hr
  obtain ⟨c, hr0, hr01⟩ := read_split hr1
  obtain ⟨mk, h1, h2, h3, d, h4, h5⟩ := mask_read ht hch hd hb hr0 hr01
  obtain ⟨ch1, hch1, hrest⟩ := tidy_split (F := F) (pre := pre ++ element "mask" attrs body) (els := post) ht
  have hj := hrest (· = .color) fuel m c1 (tokensOK_color _) hr1
  obtain ⟨ch2, hch2⟩ := Option.isSome_iff_exists.1 ht.nested
  obtain ⟨ch1', hch1', hch3⟩ := openFrom_prefix hch2
  rw [hch1] at hch1'
  cases hch1'
  obtain ⟨k1, rest, ms, k2, k3⟩ := beside_readTokens (fuel := fuel) hj hch3 h5
  rw [hr2] at k1 k2 k3
  refine ⟨mk, h1, ?_, ?_, ?_, rest, (readTokens fuel post d).2.svg, ?_, ?_, ?_⟩
  · rw [parse_cut hr1]
    show c1.svg.svgMasks.find mk.id = _
    rw [h2, find_insert_self]
  · intro id hid
    rw [parse_cut hr1, parse_cut hr0]
    show c1.svg.svgMasks.find id = c.svg.svgMasks.find id
    rw [h2, find_insert_ne _ hid]
  · rw [parse_cut hr1, parse_cut hr0]; exact h3
  · rw [parse_cut hr0]; exact k2
  · have hg : readTokens fuel (pre ++ element "g" attrs body ++ post) (initCursor (F := F) m) = (.ok (), (readTokens fuel post d).2) :=
      read_join (read_join hr0 h4) (Prod.ext k1 rfl)
    unfold parse
    rw [hg]
    dsimp only
    rw [if_pos (by simp [element, List.any_append, Token.isStart])]
    rw [k3]
    rfl
  · rw [k3, parse_cut hr0]; rfl

/-- C45: only the end tag of a mask registers one. For every document and every other token, the masks registered after the token
are those registered before, whatever the outcome of reading it. -/
theorem C45_only_mask_end {fuel : Nat} {m : ErrorMode} {pre : List Token} {t : Token} (ht : t ≠ .stop "mask".toList) {s s' : Svg F}
    {e e' : Option Err} {l l' : List Msg} {fin fin' : StreamEnd} (h : parse fuel m pre fin = .done (some s) e l)
    (h' : parse fuel m (pre ++ [t]) fin' = .done (some s') e' l') : s'.svgMasks = s.svgMasks := by
  obtain ⟨h1, h2⟩ := parse_svg h
  obtain ⟨h3, h4⟩ := parse_svg h'
  rw [readTokens_append, SM.bind_run] at h3
  rcases hr : readTokens fuel pre (initCursor (F := F) m) with ⟨r, c⟩
  rw [hr] at h1 h2 h3
  cases r with
  | ok u =>
    dsimp only at h1 h3
    have hone : (readTokens fuel [t] c).2 = (readToken fuel t c).2 := by
      rw [readTokens_cons, SM.bind_run]
      rcases readToken fuel t c with ⟨r, c1⟩
      cases r <;> rfl
    rw [hone] at h3
    rw [← h1, ← h3]
    exact readToken_masks ht fuel c
  | err e => rw [← h1, ← h3]
  | panic s => exact absurd h2 id
  | diverge => exact absurd h2 id

/-- C45, every mask, partial: each mask registered when a tidy document has been read without an error comes from a mask element
of the document that stands outside `defs`: it has the name of that element and holds exactly the paths of that element's
content. So no shape from outside a mask ends up in one. Missing: documents that are not tidy. -/
theorem C45_registered_partial {fuel : Nat} {m : ErrorMode} {ts : List Token} {s : Svg F} {l : List Msg} (ht : Tidy ts)
    (h : parse fuel m ts .eof = .done (some s) none l) {id : Str} {mk : SvgMask F} (hm : s.svgMasks.find id = some mk) :
    mk.id = id ∧ ∃ pre attrs body post ch, ts = pre ++ element "mask" attrs body ++ post ∧ openFrom [] pre = some ch ∧
      inside "defs" ch = false ∧ openFrom [] body = some [] ∧ MaskOf fuel m pre attrs body mk := by
  obtain ⟨c, hr, rfl, rfl⟩ := parse_eof_ok h
  clear h
  generalize hn : ts.length = n
  induction n using Nat.strongRecOn generalizing ts c with
  | _ n ih =>
  rcases List.eq_nil_or_concat ts with rfl | ⟨ts, t, rfl⟩
  · cases hr; cases hm
  · rw [List.concat_eq_append] at ht hr hn ⊢
    obtain ⟨c1, hr1, hr2⟩ := read_split hr
    have ht1 := tidy_prefix ht
    have old : ∀ us vs d, ts = us ++ vs → readTokens fuel us (initCursor (F := F) m) = (.ok (), d) → d.svg.svgMasks.find id = some mk →
        mk.id = id ∧ ∃ pre attrs body post ch, ts ++ [t] = pre ++ element "mask" attrs body ++ post ∧ openFrom [] pre = some ch ∧
        inside "defs" ch = false ∧ openFrom [] body = some [] ∧ MaskOf fuel m pre attrs body mk := by
      intro us vs d hus hd hf
      have hlen : us.length < n := by
        rw [← hn, hus, List.length_append, List.length_append, List.length_singleton]; omega
      obtain ⟨h0, pre, attrs, body, post, ch, h5, h1, h2, h3, h4⟩ := ih _ hlen (tidy_prefix (hus ▸ ht1)) d hd hf rfl
      exact ⟨h0, pre, attrs, body, post ++ vs ++ [t], ch, by rw [hus, h5]; simp only [List.append_assoc], h1, h2, h3, h4⟩
    have hone : (readTokens fuel [t] c1).2 = (readToken fuel t c1).2 := by
      rw [readTokens_cons, SM.bind_run]
      rcases readToken fuel t c1 with ⟨r, c1⟩
      cases r <;> rfl
    by_cases htok : t = .stop "mask".toList
    · subst htok
      obtain ⟨ch', hch'⟩ := Option.isSome_iff_exists.1 ht.nested
      obtain ⟨ch1, hch1, hch2⟩ := openFrom_prefix hch'
      have hta := tidy_nil_split ht1 hch1 fuel m hr1
      cases hmk : c1.mask with
      | none =>
        refine old ts [] c1 (List.append_nil _).symm hr1 ?_
        have := maskEnd_none (fuel := fuel) hmk
        rw [hr2] at hone
        rw [← hone] at this
        rwa [← this]
      | some mk1 =>
        have hin : (inside "mask" ch1 && !inside "defs" ch1) = true := by
          rw [← hta.flags.inMask, ← hta.flags.mask, hmk]; rfl
        cases ch1 with
        | nil => cases hin
        | cons e ch =>
          have he : e.name = "mask".toList := by
            by_contra hne
            rw [openFrom, if_neg hne] at hch2
            cases hch2
          obtain ⟨pre, body, e1, e2, e3⟩ := open_split _ rfl hch1
          obtain ⟨en, attrs⟩ := e
          dsimp only at he e1
          subst he
          have hdf : inside "defs" ch = false := by
            rw [inside_tag_ne "defs" (by decide)] at hin
            cases hx : inside "defs" ch with
            | false => rfl
            | true => rw [hx, Bool.not_true, Bool.and_false] at hin; cases hin
          have hts : ts ++ [.stop "mask".toList] = pre ++ element "mask" attrs body ++ [] := by
            rw [e1]; simp [element]
          rw [hts] at ht
          rw [hts, List.append_nil] at hr
          obtain ⟨c0, hr0, hr01⟩ := read_split hr
          obtain ⟨mk2, h1, h2, -, -⟩ := mask_read ht e2 hdf e3 hr0 hr01
          by_cases hid : id = mk2.id
          · rw [h2, hid, find_insert_self] at hm
            cases hm
            exact ⟨hid.symm, pre, attrs, body, [], ch, hts, e2, hdf, e3, h1⟩
          · rw [h2, find_insert_ne _ hid] at hm
            exact old pre _ c0 e1 hr0 hm
    · refine old ts [] c1 (List.append_nil _).symm hr1 ?_
      have := readToken_masks htok fuel c1
      rw [← hone, hr2] at this
      rwa [← this]

end GoSvg

namespace GoSvg

open Spec

section Examples

attribute [local instance] asciiEnv
attribute [local instance] dummyLibm

/-- A small square, as an element. -/
def maskRect (w : String) : List Token := elem "rect" [("width", w), ("height", "2")]

/-- What a document gives: the number of its paths, and the registered masks with the number of their paths. -/
def maskCounts (ts : List Token) : Option (Nat × List (Str × Nat)) :=
  match parse (F := F64) 8 .strict ts .eof with
  | .done (some s) none _ => some (s.svgPaths.length, s.svgMasks.map fun p => (p.1, p.2.svgPaths.length))
  | _ => none

/-- Before the mask of the example. -/
def maskPre : List Token :=
  [.start "svg".toList []] ++ elem "defs" [] (elem "g" [("id", "d")] (maskRect "3")) ++ maskRect "4"

/-- Its content. -/
def maskBody : List Token :=
  elem "g" [("fill", "red")] (maskRect "5" ++ elem "use" [("href", "#d")]) ++ [.chars " ".toList] ++ maskRect "6"

/-- After it. -/
def maskPost : List Token := maskRect "7" ++ elem "mask" [("id", "n")] (maskRect "8") ++ [.stop "svg".toList]

theorem maskDoc_tidy : Tidy (maskPre ++ element "mask" (attrsOf [("id", "m")]) maskBody ++ maskPost) :=
  ⟨by decide +kernel, by decide +kernel, .inr (by decide +kernel)⟩

/-- C45 applies: a mask with three shapes between other shapes, one of them reused. -/
theorem C45_example : ∃ (s : Svg F64) (mk : SvgMask F64),
    parse 8 .strict (maskPre ++ element "mask" (attrsOf [("id", "m")]) maskBody ++ maskPost) .eof = .done (some s) none [] ∧
    s.svgMasks.find "m".toList = some mk ∧ mk.svgPaths.length = 3 ∧ s.svgPaths.length = 2 ∧
    MaskOf 8 .strict maskPre (attrsOf [("id", "m")]) maskBody mk := by
  have h : (match parse (F := F64) 8 .strict (maskPre ++ element "mask" (attrsOf [("id", "m")]) maskBody ++ maskPost) .eof with
    | .done (some s) none [] => decide (s.svgPaths.length = 2 ∧ (s.svgMasks.find "m".toList).map (·.svgPaths.length) = some 3 ∧
      s.svgMasks.find "m".toList = Outcome.mask (parse (F := F64) 8 .strict (maskPre ++ element "mask" (attrsOf [("id", "m")]) maskBody) (.error 0)) "m".toList)
    | _ => false) = true := by
    decide +kernel
  split at h
  · rename_i s hs
    obtain ⟨h1, h2, hkept⟩ := of_decide_eq_true h
    obtain ⟨ch, hch⟩ := Option.isSome_iff_exists.1 (show (openFrom [] maskPre).isSome = true by decide +kernel)
    have hd : inside "defs" ch = false := by
      have : (openFrom [] maskPre).map (inside "defs") = some false := by decide +kernel
      rw [hch] at this
      exact Option.some.inj this
    obtain ⟨mk, k1, k2, -⟩ := C45_collected_partial maskDoc_tidy hch hd (by decide +kernel) hs
    cases hf : s.svgMasks.find "m".toList with
    | none => rw [hf] at h2; cases h2
    | some mk' =>
      rw [hf] at h2
      have hid : mk.id = "m".toList := by
        rcases k1.name with ⟨as, bs, e1, -⟩ | ⟨-, h⟩
        · have : as = [] := by
            have := congrArg List.length e1
            simp only [attrsOf, List.map_cons, List.map_nil, List.length_append, List.length_cons, List.length_nil] at this
            exact List.length_eq_zero_iff.1 (by omega)
          subst this
          injection e1 with e1 e2
          injection e1 with e1 e3
          exact e3.symm
        · exact absurd rfl (h _ List.mem_cons_self)
      have hf' := hf
      rw [hkept, ← hid, k2] at hf'
      cases hf'
      exact ⟨s, mk, hs, hf, Option.some.inj h2, h1, k1⟩
  · cases h

/-- C45 does not hold for all documents: a mask within a mask. The end of the inner one ends the collection, so the outer one is
never registered, and what follows in it is painted. -/
theorem C45_nested_mask_false :
    maskCounts (elem "svg" [] (elem "mask" [("id", "a")] (maskRect "1" ++ elem "mask" [("id", "b")] (maskRect "2") ++ maskRect "3"))) =
      some (1, [("b".toList, 1)]) := by decide +kernel

/-- C45 does not hold for all documents: a mask in `defs` in a mask. The outer mask is registered at the end of the inner one,
and its content after that is painted. -/
theorem C45_defs_false :
    maskCounts (elem "svg" [] (elem "mask" [("id", "a")] (elem "defs" [] (elem "mask" [] []) ++ maskRect "3"))) =
      some (1, [("a".toList, 0)]) := by decide +kernel

/-- C45 does not hold for all documents: after a `use` of a mask from `defs`, all that follows is taken for the content of that
mask, and is painted nowhere. With a further end of a mask it is even registered, the shape from outside included. -/
theorem C45_use_false :
    maskCounts (elem "svg" [] (elem "defs" [] (elem "mask" [("id", "m")] (maskRect "1")) ++ elem "use" [("href", "#m")] ++ maskRect "3")) =
      some (0, []) ∧
    maskCounts (elem "svg" [] (elem "defs" [] (elem "mask" [("id", "m")] (maskRect "1")) ++ elem "use" [("href", "#m")] ++ maskRect "3" ++
      elem "defs" [] (elem "mask" []))) = some (0, [("m".toList, 2)]) := by decide +kernel

/-- C61 does not hold in documents: `mask="none"` on an element does select a mask, the one without a name. The style of the
painted rectangle holds the empty name, and there is a mask under that name. -/
theorem C61_none_false : (match parse (F := F64) 8 .strict
    (elem "svg" [] (elem "mask" [] (maskRect "3") ++ elem "rect" [("mask", "none"), ("width", "2"), ("height", "2")])) .eof with
    | .done (some s) none [] => decide (s.svgPaths.map (fun p => p.style.masks.read s.arrays) = [[[]]] ∧
        (s.svgMasks.find []).map (·.svgPaths.length) = some 1)
    | _ => false) = true := by decide +kernel

end Examples

end GoSvg
