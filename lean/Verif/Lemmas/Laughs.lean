import Verif.Lemmas.UseEnds
import Verif.Lemmas.TokenStep
import Verif.Spec.Size

/-! A family of documents in which each definition uses the one before it twice. -/

namespace GoSvg

open Spec

theorem lower_lit [GoEnv] {s : Str} (h : ∀ c ∈ s, c.toNat < 128 ∧ c.toLower = c) : toLower s = s := by
  unfold toLower
  induction s with
  | nil => rfl
  | cons a as ih =>
    rw [List.map_cons, ih fun c hc => h c (List.mem_cons_of_mem _ hc), GoEnv.toLower_ascii a (h a List.mem_cons_self).1, (h a List.mem_cons_self).2]

/-- One attribute that is no property. -/
theorem unstyled_one [GoEnv] {n : Str} (h : ∀ c ∈ n, c.toNat < 128 ∧ c.toLower = c) (hc : ':' ∉ n) (hs : n ≠ "style".toList)
    (hp : ∀ p ∈ styleProperties, trimSpace n ≠ p.toList) (v : Str) : Unstyled [⟨n, v⟩] := by
  intro d hd
  unfold declared at hd
  rw [List.flatMap_cons, List.flatMap_nil, List.append_nil] at hd
  rw [if_neg (by rw [lower_lit h]; exact hs)] at hd
  unfold declaration at hd
  rw [split_append_sep hc] at hd
  cases hv : split ':' v with
  | nil => exact absurd hv (split_ne_nil _ _)
  | cons w ws =>
    rw [hv] at hd
    dsimp only at hd
    rw [Option.toList_some, List.mem_singleton] at hd
    subst hd
    rw [lower_lit h]; exact hp

theorem unstyled_id [GoEnv] (v : Str) : Unstyled [⟨"id".toList, v⟩] := unstyled_one (by decide) (by decide) (by decide) (by decide) v
theorem unstyled_href [GoEnv] (v : Str) : Unstyled [⟨"href".toList, v⟩] := unstyled_one (by decide) (by decide) (by decide) (by decide) v

theorem unstyled_nil [GoEnv] : Unstyled [] := by
  intro d hd; cases hd

/-- The name of the definition `k`. -/
def ident (k : Nat) : Str := List.replicate (k + 1) 'x'

theorem ident_ne {j k : Nat} (h : j ≠ k) : ident j ≠ ident k := by
  intro e
  have := congrArg List.length e
  simp [ident] at this
  exact h this

/-- `<use href="#..."/>` -/
def useElem (k : Nat) : List Token := [.start "use".toList [⟨"href".toList, '#' :: ident k⟩], .stop "use".toList]

/-- The definitions up to `k`: a line, and groups that use the definition before them twice. -/
def chainDefs : Nat → List Token
  | 0 => [.start "line".toList [⟨"id".toList, ident 0⟩], .stop "line".toList]
  | k + 1 => chainDefs k ++ ([.start "g".toList [⟨"id".toList, ident (k + 1)⟩]] ++ useElem k ++ useElem k ++ [.stop "g".toList])

/-- The whole document: the definitions, and one use of the last of them. -/
def laughs (k : Nat) : List Token :=
  [.start "svg".toList [], .start "defs".toList []] ++ chainDefs k ++ [.stop "defs".toList] ++ useElem k ++ [.stop "svg".toList]

/-- What is recorded for the definition `k`. -/
def chainDef : Nat → List Definition
  | 0 => [⟨ident 0, "line".toList, [⟨"id".toList, ident 0⟩]⟩]
  | k + 1 => [⟨ident (k + 1), "g".toList, [⟨"id".toList, ident (k + 1)⟩]⟩, ⟨[], "use".toList, [⟨"href".toList, '#' :: ident k⟩]⟩,
      ⟨[], "use".toList, [⟨"href".toList, '#' :: ident k⟩]⟩, ⟨[], "endg".toList, []⟩]

theorem useElem_size (k : Nat) : docSize (useElem k) = 15 + k := by
  simp [docSize, useElem, tokenSize, ident]; omega

theorem chainDefs_size : ∀ k, docSize (chainDefs k) ≤ 40 * (k + 1) * (k + 1)
  | 0 => by decide
  | k + 1 => by
    have ih := chainDefs_size k
    have h1 := useElem_size k
    unfold chainDefs
    simp only [docSize, List.map_append, List.sum_append] at ih h1 ⊢
    rw [h1]
    simp [tokenSize, ident]
    nlinarith

theorem laughs_size (k : Nat) : docSize (laughs k) ≤ 80 * (k + 1) * (k + 1) := by
  have h1 := chainDefs_size k
  have h2 := useElem_size k
  unfold laughs
  simp only [docSize, List.map_append, List.sum_append] at h1 h2 ⊢
  rw [h2]
  simp [tokenSize]
  nlinarith

variable {F : Type} [GoFloat F] [GoEnv]

/-- A state inside `defs`. -/
structure Recording (c : Cursor F) : Prop where
  inDefs : c.inDefs = true
  inGrad : c.inGrad = false
  stack : c.styleStack ≠ []

theorem record_start {fuel : Nat} {name : Str} {attrs : List Attr} {c : Cursor F} (h : Recording c) (hu : Unstyled attrs)
    (hn : name ≠ "radialGradient".toList ∧ name ≠ "linearGradient".toList) :
    ∃ top, readToken fuel (.start name attrs) c = (.ok (), recordDef name attrs { c with styleStack := top :: c.styleStack }) := by
  obtain ⟨h1, h2, h3⟩ := h
  cases hs : c.styleStack with
  | nil => exact absurd hs h3
  | cons top rest =>
    refine ⟨top, ?_⟩
    rw [readToken, SM.bind_run, pushStyle_unstyled hu hs, ← hs]
    dsimp only
    unfold readStartElement
    dsimp only
    rw [if_pos ⟨h1, by rw [h2]; exact fun h => h.elim hn.1 (fun h => h.elim hn.2 (by decide))⟩]

theorem stop_plain {fuel : Nat} {name : Str} {c : Cursor F} {st : PathStyle F} {sts : List (PathStyle F)} (h : c.styleStack = st :: sts)
    (hn : name ∉ ["g", "mask", "title", "desc", "defs", "radialGradient", "linearGradient"].map String.toList) :
    readToken fuel (.stop name) c = (.ok (), { c with styleStack := sts }) := by
  have hk : ∀ s ∈ ["g", "mask", "title", "desc", "defs", "radialGradient", "linearGradient"], name ≠ s.toList :=
    fun s hs e => hn (List.mem_map.2 ⟨s, hs, e.symm⟩)
  rw [readToken]
  unfold readEndElement
  rw [SM.bind_run]
  unfold popStyle
  rw [h]
  dsimp only
  rw [SM.modify_run]
  dsimp only
  rw [if_neg (hk "g" (by decide)), if_neg (hk "mask" (by decide)), if_neg (hk "title" (by decide)), if_neg (hk "desc" (by decide)),
    if_neg (hk "defs" (by decide)), if_neg (by rintro (e | e); exacts [hk "radialGradient" (by decide) e, hk "linearGradient" (by decide) e])]

theorem stop_g {fuel : Nat} {c : Cursor F} {st : PathStyle F} {sts : List (PathStyle F)} (h : c.styleStack = st :: sts) (hd : c.inDefs = true) :
    readToken fuel (.stop "g".toList) c = (.ok (), { c with styleStack := sts, currentDef := c.currentDef ++ [⟨[], "endg".toList, []⟩] }) := by
  rw [readToken]
  unfold readEndElement
  rw [SM.bind_run]
  unfold popStyle
  rw [h]
  dsimp only
  rw [SM.modify_run]
  dsimp only
  rw [if_pos rfl, if_pos hd]

theorem record_elem {fuel : Nat} {name : Str} {attrs : List Attr} {c : Cursor F} (h : Recording c) (hu : Unstyled attrs)
    (hn : name ∉ ["g", "mask", "title", "desc", "defs", "radialGradient", "linearGradient"].map String.toList) :
    readTokens fuel [.start name attrs, .stop name] c = (.ok (), recordDef name attrs c) := by
  have hk : ∀ s ∈ ["g", "mask", "title", "desc", "defs", "radialGradient", "linearGradient"], name ≠ s.toList :=
    fun s hs e => hn (List.mem_map.2 ⟨s, hs, e.symm⟩)
  obtain ⟨top, ht⟩ := record_start (fuel := fuel) h hu ⟨hk "radialGradient" (by decide), hk "linearGradient" (by decide)⟩
  rw [readTokens_cons, SM.bind_run, ht]
  dsimp only
  have hs : (recordDef name attrs { c with styleStack := top :: c.styleStack }).styleStack = top :: c.styleStack := by
    unfold recordDef; dsimp only; split <;> (try split) <;> rfl
  rw [readTokens_cons, SM.bind_run, stop_plain hs hn]
  show (Res.ok (), _) = _
  unfold recordDef; dsimp only
  split <;> (try split) <;> rfl

/-- The definitions as they are recorded. -/
def Chained (k : Nat) (c : Cursor F) : Prop := ∀ j, j < k → c.svg.defs.find (ident j) = some (chainDef j)

theorem useElem_record {fuel k : Nat} {c : Cursor F} (h : Recording c) :
    readTokens fuel (useElem k) c = (.ok (), { c with currentDef := c.currentDef ++ [⟨[], "use".toList, [⟨"href".toList, '#' :: ident k⟩]⟩] }) := by
  rw [useElem, record_elem h (unstyled_href _) (by decide)]
  have hid : lastID [⟨"href".toList, '#' :: ident k⟩] = [] := rfl
  unfold recordDef
  rw [hid]
  cases c
  rename_i cur mask
  cases cur <;> rfl

/-- Reading the definitions up to `k`, with nothing else recorded. -/
theorem chain_read (fuel : Nat) : ∀ (k : Nat) (c : Cursor F), Recording c → c.currentDef = [] →
    ∃ t, readTokens fuel (chainDefs k) c = (.ok (), { c with svg := { c.svg with defs := t }, currentDef := chainDef k }) ∧
      ∀ j, j < k → GoMap.find t (ident j) = some (chainDef j)
  | 0, c, h, hc => by
    refine ⟨c.svg.defs, ?_, fun j hj => absurd hj (Nat.not_lt_zero _)⟩
    rw [chainDefs, record_elem h (unstyled_id _) (by decide)]
    cases c
    cases hc
    rfl
  | k + 1, c, h, hc => by
    obtain ⟨t, ht, hf⟩ := chain_read fuel k c h hc
    have hid : ∀ j, lastID [⟨"id".toList, ident j⟩] = ident j := fun j => rfl
    obtain ⟨d, ds, hd, hi⟩ : ∃ d ds, chainDef k = d :: ds ∧ d.id = ident k := by
      cases k with
      | zero => exact ⟨_, _, rfl, rfl⟩
      | succ k => exact ⟨_, _, rfl, rfl⟩
    refine ⟨GoMap.insert t (ident k) (chainDef k), ?_, ?_⟩
    · rw [chainDefs, readTokens_append, SM.bind_run, ht]
      dsimp only
      generalize hc1 : ({ c with svg := { c.svg with defs := t }, currentDef := chainDef k } : Cursor F) = c1
      have h1 : Recording c1 := by rw [← hc1]; exact ⟨h.1, h.2, h.3⟩
      obtain ⟨top, hr⟩ := record_start (fuel := fuel) (name := "g".toList) h1 (unstyled_id (ident (k + 1))) (by decide)
      have hg : recordDef "g".toList [⟨"id".toList, ident (k + 1)⟩] { c1 with styleStack := top :: c1.styleStack } =
          { c with
            svg := { c.svg with defs := GoMap.insert t (ident k) (chainDef k) }
            styleStack := top :: c.styleStack
            currentDef := [⟨ident (k + 1), "g".toList, [⟨"id".toList, ident (k + 1)⟩]⟩] } := by
        unfold recordDef
        rw [hid, ← hc1]
        dsimp only
        rw [hd]
        dsimp only
        rw [if_pos (by simp [ident]), hi]
        rfl
      rw [hg] at hr
      rw [List.append_assoc, List.append_assoc, List.singleton_append, readTokens_cons, SM.bind_run, hr]
      dsimp only
      generalize hc2 : Cursor.mk (F := F) _ _ _ _ _ _ _ _ _ _ _ = c2
      have h2 : Recording c2 := by rw [← hc2]; exact ⟨h.1, h.2, by simp⟩
      rw [readTokens_append, SM.bind_run, useElem_record h2]
      dsimp only
      generalize hc3 : Cursor.mk (F := F) _ _ _ _ _ _ _ _ _ _ _ = c3
      have h3 : Recording c3 := by rw [← hc3]; exact ⟨h2.1, h2.2, h2.3⟩
      rw [readTokens_append, SM.bind_run, useElem_record h3]
      dsimp only
      generalize hc4 : Cursor.mk (F := F) _ _ _ _ _ _ _ _ _ _ _ = c4
      rw [readTokens_cons, SM.bind_run, stop_g (c := c4) (st := top) (sts := c.styleStack) (by rw [← hc4, ← hc3, ← hc2])
        (by rw [← hc4]; exact h3.1), ← hc4, ← hc3, ← hc2]
      rfl
    · intro j hj
      by_cases e : j = k
      · subst e; exact find_insert_self _ _ _
      · rw [find_insert_ne _ (ident_ne e)]; exact hf j (by omega)

/-- A state in which the definitions up to `k` are known. -/
structure Known (k : Nat) (c : Cursor F) : Prop where
  stack : c.styleStack ≠ []
  defs : ∀ j, j ≤ k → c.svg.defs.find (ident j) = some (chainDef j)

/-- What stays the same when a definition is used. -/
structure Used (n : Nat) (c c' : Cursor F) : Prop where
  eq : c' = { c with pc := c'.pc }
  ops : c'.pc.path.length = c.pc.path.length + n
  log : c'.pc.log = c.pc.log

/-- The part of `useF` that is common to all definitions. -/
theorem use_known {k fuel : Nat} {c : Cursor F} (h : Known k c) :
    useF (fuel + 1) [⟨"href".toList, '#' :: ident k⟩] c =
      withOffset (num 0) (num 0) (fun c => useLoop (drawFuncs fuel (useF fuel)) (chainDef k) c) c := by
  have hd := h.defs k (Nat.le_refl k)
  have hid : refOf [⟨"href".toList, '#' :: ident k⟩] = some (ident k) := rfl
  rcases useF_cases fuel [⟨"href".toList, '#' :: ident k⟩] c with ⟨e, he, -⟩ | ⟨v, hv, hu⟩
  · cases he
  · rw [hu]
    have : v = ⟨'#' :: ident k, num 0, num 0⟩ := by cases hv; rfl
    rw [this]
    unfold withOffset
    dsimp only
    rcases useBody_cases (drawFuncs fuel (useF (F := F) fuel)) [⟨"href".toList, '#' :: ident k⟩] (atOffset (num 0) (num 0) c) with
      ⟨-, k', -⟩ | ⟨-, k', -⟩ | ⟨id', k', k2, -⟩ | ⟨id', ds, k', k2, k3⟩
    · rw [hid] at k'; cases k'
    · rw [hid] at k'; cases k'
    · rw [hid] at k'; cases k'; rw [show (atOffset (num 0) (num 0) c).svg = c.svg from rfl, hd] at k2; cases k2
    · rw [hid] at k'; cases k'; rw [show (atOffset (num 0) (num 0) c).svg = c.svg from rfl, hd] at k2; cases k2
      unfold atOffset at k3
      rw [k3]

omit [GoFloat F] [GoEnv] in
theorem known_mono {j k : Nat} {c : Cursor F} (hj : j ≤ k) (h : Known k c) : Known j c := ⟨h.1, fun i hi => h.2 i (by omega)⟩

theorem use_ops : ∀ (k fuel : Nat) (c : Cursor F), k < fuel → Known k c →
    ∃ c', useF fuel [⟨"href".toList, '#' :: ident k⟩] c = (.ok (), c') ∧ Used (2 ^ (k + 1)) c c' := by
  intro k
  induction k with
  | zero =>
    intro fuel c hf h
    obtain ⟨n, rfl⟩ : ∃ n, fuel = n + 1 := ⟨fuel - 1, by omega⟩
    cases hs : c.styleStack with
    | nil => exact absurd hs h.1
    | cons top rest =>
      rw [use_known h]
      unfold withOffset
      dsimp only
      rw [chainDef, useLoop, if_neg (by decide), SM.bind_run, pushStyle_unstyled (unstyled_id _) (by exact hs)]
      dsimp only
      have hdf : drawFuncs n (useF (F := F) n) "line".toList = some lineF := rfl
      rw [hdf]
      dsimp only
      rw [SM.bind_run]
      unfold lineF
      rw [SM.bind_run, SM.get_run]
      dsimp only
      rw [SM.bind_run, SM.lift_run]
      have hl : ∀ vb : Bounds F, ∀ v, Res.loop (lineAttr vb) v [⟨"id".toList, ident 0⟩] = .ok v := fun vb v => rfl
      rw [hl]
      dsimp only
      rw [SM.modify_run]
      dsimp only
      rw [if_pos (by decide), SM.bind_run]
      unfold popStyle
      dsimp only
      refine ⟨_, rfl, ?_, ?_, rfl⟩
      · rfl
      · show (_ ++ _ : Path).length = _
        rw [List.length_append]; rfl
  | succ k ih =>
    intro fuel c hf h
    obtain ⟨n, rfl⟩ : ∃ n, fuel = n + 1 := ⟨fuel - 1, by omega⟩
    cases hs : c.styleStack with
    | nil => exact absurd hs h.1
    | cons top rest =>
      -- one step of the loop, for a nested use
      have step : ∀ (c1 : Cursor F) (ds : List Definition), Known k c1 →
          ∃ c2, Used (2 ^ (k + 1)) c1 c2 ∧
            useLoop (drawFuncs n (useF (F := F) n)) (⟨[], "use".toList, [⟨"href".toList, '#' :: ident k⟩]⟩ :: ds) c1 =
              useLoop (drawFuncs n (useF (F := F) n)) ds c2 := by
        intro c1 ds h1
        cases hs1 : c1.styleStack with
        | nil => exact absurd hs1 h1.1
        | cons top1 rest1 =>
          obtain ⟨c2, k1, k2⟩ := ih n { c1 with styleStack := top1 :: c1.styleStack } (by omega) ⟨by simp, h1.2⟩
          have e := k2.eq
          dsimp only at e
          refine ⟨{ c1 with pc := c2.pc }, ⟨rfl, k2.ops, k2.log⟩, ?_⟩
          rw [useLoop, if_neg (show ¬ "use".toList = "endg".toList by decide), SM.bind_run, pushStyle_unstyled (unstyled_href _) hs1]
          dsimp only
          rw [drawFuncs_use]
          dsimp only
          rw [SM.bind_run, k1]
          dsimp only
          rw [if_pos (show "use".toList ≠ "g".toList by decide), SM.bind_run]
          unfold popStyle
          rw [e]
      rw [use_known h]
      unfold withOffset
      dsimp only
      rw [chainDef, useLoop, if_neg (show ¬ "g".toList = "endg".toList by decide), SM.bind_run, pushStyle_unstyled (unstyled_id _) (by exact hs)]
      dsimp only
      have hdf : drawFuncs n (useF (F := F) n) "g".toList = some gF := rfl
      rw [hdf]
      dsimp only
      rw [SM.bind_run]
      unfold gF
      rw [SM.pure_run]
      dsimp only
      rw [if_neg (show ¬ "g".toList ≠ "g".toList by decide)]
      generalize hc1 : ({ c with pc := { c.pc with curX := num 0, curY := num 0 }, styleStack := top :: c.styleStack } : Cursor F) = c1
      have h1 : Known k c1 := by
        rw [← hc1]; exact ⟨by simp, fun j hj => h.2 j (by omega)⟩
      obtain ⟨c2, u2, e2⟩ := step c1 [⟨[], "use".toList, [⟨"href".toList, '#' :: ident k⟩]⟩, ⟨[], "endg".toList, []⟩] h1
      have h2 : Known k c2 := by
        rw [u2.eq]; exact ⟨h1.1, h1.2⟩
      obtain ⟨c3, u3, e3⟩ := step c2 [⟨[], "endg".toList, []⟩] h2
      rw [e2, e3, useLoop, if_pos rfl, SM.bind_run]
      have e : c3 = { c with pc := c3.pc, styleStack := top :: c.styleStack } := by
        rw [u3.eq, u2.eq, ← hc1]
      unfold popStyle
      rw [e]
      dsimp only
      refine ⟨_, rfl, rfl, ?_, ?_⟩
      · show c3.pc.path.length = _
        rw [u3.ops, u2.ops, ← hc1, pow_succ 2 (k + 1)]
        dsimp only
        omega
      · show c3.pc.log = _
        rw [u3.log, u2.log, ← hc1]

theorem laughs_start (fuel : Nat) (m : ErrorMode) : ∃ c : Cursor F,
    readTokens fuel [.start "svg".toList [], .start "defs".toList []] (initCursor m) = (.ok (), c) ∧ Recording c ∧ c.currentDef = [] ∧
      c.styleStack.length = 3 ∧ c.pc.path = [] ∧ c.pc.log = [] ∧ c.svg.svgPaths = [] ∧ c.svg.svgMasks = [] ∧ c.inMask = false :=
  ⟨_, rfl, ⟨rfl, rfl, by exact List.cons_ne_nil _ _⟩, rfl, rfl, rfl, rfl, rfl, rfl, rfl⟩

theorem stop_defs_flush {fuel : Nat} {c : Cursor F} {st : PathStyle F} {sts : List (PathStyle F)} (h : c.styleStack = st :: sts)
    {d : Definition} {ds : List Definition} (hd : c.currentDef = d :: ds) :
    readToken fuel (.stop "defs".toList) c = (.ok (), { c with
      styleStack := sts, svg := { c.svg with defs := c.svg.defs.insert d.id c.currentDef }, currentDef := [], inDefs := false }) := by
  rw [readToken]
  unfold readEndElement
  rw [SM.bind_run]
  unfold popStyle
  rw [h]
  dsimp only
  rw [SM.modify_run]
  dsimp only
  rw [if_neg (by decide), if_neg (by decide), if_neg (by decide), if_neg (by decide), if_pos rfl, hd]

theorem emit_doc {c : Cursor F} {st : PathStyle F} {sts : List (PathStyle F)} (h : c.pc.path ≠ []) (hm : c.inMask = false)
    (hs : c.styleStack = st :: sts) : emitPath c =
      (.ok (), { c with pc := { c.pc with path := [] }, svg := { c.svg with svgPaths := c.svg.svgPaths ++ [⟨c.pc.path, st⟩] } }) := by
  unfold emitPath
  rw [hm, hs]
  cases hp : c.pc.path with
  | nil => exact absurd hp h
  | cons a b => rfl

theorem laughs_ops (k : Nat) (m : ErrorMode) : ∃ s : Svg F, parse (k + 1) m (laughs k) .eof = .done (some s) none [] ∧ opsOf s = 2 ^ (k + 1) := by
  obtain ⟨c, h1, hr, hc, hl, hp, hlog, hsp, hsm, him⟩ := laughs_start (F := F) (k + 1) m
  obtain ⟨t, h2, hf⟩ := chain_read (k + 1) k c hr hc
  obtain ⟨s1, s2, s3, hst⟩ := List.length_eq_three.1 hl
  obtain ⟨d, ds, hd, hi⟩ : ∃ d ds, chainDef k = d :: ds ∧ d.id = ident k := by
    cases k with
    | zero => exact ⟨_, _, rfl, rfl⟩
    | succ k => exact ⟨_, _, rfl, rfl⟩
  generalize hc2 : Cursor.mk (F := F) _ _ _ _ _ _ _ _ _ _ _ = c2 at h2
  have h3 := stop_defs_flush (fuel := k + 1) (c := c2) (st := s1) (sts := [s2, s3]) (by rw [← hc2]; exact hst) (d := d) (ds := ds) (by rw [← hc2]; exact hd)
  generalize hc3 : Cursor.mk (F := F) _ _ _ _ _ _ _ _ _ _ _ = c3 at h3
  have hst3 : c3.styleStack = [s2, s3] := by rw [← hc3]
  have hdef3 : c3.svg.defs = GoMap.insert t (ident k) (chainDef k) := by rw [← hc3, ← hc2, hi]
  -- the use
  have hk : Known k ({ c3 with styleStack := s2 :: c3.styleStack } : Cursor F) := by
    refine ⟨by simp, fun j hj => ?_⟩
    dsimp only
    rw [hdef3]
    by_cases e : j = k
    · subst e; exact find_insert_self _ _ _
    · rw [find_insert_ne _ (ident_ne e)]; exact hf j (by omega)
  obtain ⟨c4, h4, u4⟩ := use_ops k (k + 1) _ (by omega) hk
  have hpath : c4.pc.path.length = 2 ^ (k + 1) := by
    rw [u4.ops]
    have : c3.pc.path = [] := by rw [← hc3, ← hc2]; exact hp
    dsimp only
    rw [this]; simp
  have hne : c4.pc.path ≠ [] := by
    intro e
    have := Nat.two_pow_pos (k + 1)
    rw [e, List.length_nil] at hpath
    omega
  have e4 := u4.eq
  dsimp only at e4
  have hm4 : c4.inMask = false := by rw [e4, ← hc3, ← hc2]; exact him
  have hdefs4 : c3.inDefs = false := by rw [← hc3]
  have hsp4 : c4.svg.svgPaths = [] := by rw [e4, ← hc3, ← hc2]; exact hsp
  have hsm4 : c4.svg.svgMasks = [] := by rw [e4, ← hc3, ← hc2]; exact hsm
  have hst4 : c4.styleStack = [s2, s2, s3] := by rw [e4, hst3]
  have hlog4 : c4.pc.log = [] := by rw [u4.log, ← hc3, ← hc2]; exact hlog
  have h5 : readToken (k + 1) (.start "use".toList [⟨"href".toList, '#' :: ident k⟩]) c3 =
      (.ok (), { c4 with pc := { c4.pc with path := [] }, svg := { c4.svg with svgPaths := c4.svg.svgPaths ++ [⟨c4.pc.path, s2⟩] } }) := by
    rw [readToken, SM.bind_run, pushStyle_unstyled (unstyled_href _) hst3]
    dsimp only
    unfold readStartElement
    dsimp only
    rw [if_neg (by rw [hdefs4]; exact fun h => absurd h.1 (by decide)), drawFuncs_use]
    dsimp only
    rw [h4]
    dsimp only
    rw [emit_doc hne hm4 hst4]
  have h6 := stop_plain (fuel := k + 1) (name := "use".toList) (st := s2) (sts := [s2, s3])
    (c := { c4 with pc := { c4.pc with path := [] }, svg := { c4.svg with svgPaths := c4.svg.svgPaths ++ [⟨c4.pc.path, s2⟩] } }) hst4 (by decide)
  generalize hc5 : Cursor.mk (F := F) _ _ _ _ _ _ _ _ _ _ _ = c5 at h5 h6
  generalize hc6 : Cursor.mk (F := F) _ _ _ _ _ _ _ _ _ _ _ = c6 at h6
  have h7 := stop_plain (fuel := k + 1) (name := "svg".toList) (st := s2) (sts := [s3]) (c := c6) (by rw [← hc6]) (by decide)
  refine ⟨c6.svg, ?_, ?_⟩
  · unfold parse laughs useElem
    have hrun : readTokens (k + 1) ([.start "svg".toList [], .start "defs".toList []] ++ chainDefs k ++ [.stop "defs".toList] ++
        [.start "use".toList [⟨"href".toList, '#' :: ident k⟩], .stop "use".toList] ++ [.stop "svg".toList]) (initCursor (F := F) m) =
        (.ok (), { c6 with styleStack := [s3] }) := by
      rw [List.append_assoc, List.append_assoc, List.append_assoc, readTokens_append, SM.bind_run, h1]
      dsimp only
      rw [readTokens_append, SM.bind_run, h2]
      dsimp only
      rw [List.singleton_append, readTokens_cons, SM.bind_run, h3]
      dsimp only
      rw [List.cons_append, readTokens_cons, SM.bind_run, h5]
      dsimp only
      rw [List.cons_append, readTokens_cons, SM.bind_run, h6]
      dsimp only
      rw [List.nil_append, readTokens_cons, SM.bind_run, h7]
      rfl
    rw [hrun]
    dsimp only
    rw [if_pos (by simp [Token.isStart])]
    have : c6.pc.log = [] := by rw [← hc6, ← hc5]; exact hlog4
    rw [this]
  · have e1 : c6.svg.svgPaths = [⟨c4.pc.path, s2⟩] := by rw [← hc6, ← hc5]; dsimp only; rw [hsp4]; rfl
    have e2 : c6.svg.svgMasks = [] := by rw [← hc6, ← hc5]; exact hsm4
    unfold opsOf opsIn
    rw [e1, e2]
    simp [hpath]

end GoSvg
