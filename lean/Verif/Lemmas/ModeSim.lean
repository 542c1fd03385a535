import Verif.Lemmas.TokenFrame

/-! Two runs that differ in the error mode. -/

set_option linter.unusedSectionVars false

namespace GoSvg

variable {F : Type} [GoFloat F] [GoEnv]

open SM (get modify throw lift panic diverge forEach)

/-! ### Related runs -/

section Ref

variable {σ α β : Type} {E : σ → σ → Prop} {S : σ → Prop}

/-- From related states the two programs give the same result and related states, unless the first one runs in strict mode
(`S`) and does not succeed. -/
structure Ref (E : σ → σ → Prop) (S : σ → Prop) (m n : SM σ α) : Prop where
  keep : ∀ c, S (m c).2 ↔ S c
  run : ∀ c d, E c d → (S c ∧ ∀ a, (m c).1 ≠ .ok a) ∨ ((m c).1 = (n d).1 ∧ E (m c).2 (n d).2)

theorem ref_pure (a : α) : Ref E S (pure a : SM σ α) (pure a) := ⟨fun _ => Iff.rfl, fun _ _ h => .inr ⟨rfl, h⟩⟩
theorem ref_lift (a : Res α) : Ref E S (lift a : SM σ α) (lift a) := ⟨fun _ => Iff.rfl, fun _ _ h => .inr ⟨rfl, h⟩⟩
theorem ref_throw (a : Err) : Ref E S (throw a : SM σ α) (throw a) := ⟨fun _ => Iff.rfl, fun _ _ h => .inr ⟨rfl, h⟩⟩
theorem ref_panic (a : Site) : Ref E S (panic a : SM σ α) (panic a) := ⟨fun _ => Iff.rfl, fun _ _ h => .inr ⟨rfl, h⟩⟩
theorem ref_diverge : Ref E S (diverge : SM σ α) diverge := ⟨fun _ => Iff.rfl, fun _ _ h => .inr ⟨rfl, h⟩⟩

theorem ref_bind {m n : SM σ α} {f g : α → SM σ β} (h1 : Ref E S m n) (h2 : ∀ a, Ref E S (f a) (g a)) :
    Ref E S (m >>= f) (n >>= g) := by
  refine ⟨fun c => ?_, fun c d hE => ?_⟩
  · have hk := h1.keep c
    rw [SM.bind_run]
    rcases hr : m c with ⟨r, c'⟩
    rw [hr] at hk
    cases r with
    | ok a => exact ((h2 a).keep c').trans hk
    | err e => exact hk
    | panic e => exact hk
    | diverge => exact hk
  · have hk := h1.keep c
    have hr := h1.run c d hE
    rw [SM.bind_run, SM.bind_run]
    rcases hm : m c with ⟨r, c'⟩
    rcases hn : n d with ⟨r', d'⟩
    rw [hm, hn] at hr
    rw [hm] at hk
    rcases hr with ⟨hs, he⟩ | ⟨he, hE'⟩
    · refine .inl ⟨hs, fun a ha => ?_⟩
      cases r with
      | ok b => exact he b rfl
      | err e => cases ha
      | panic e => cases ha
      | diverge => cases ha
    · dsimp only at he hE'; subst he
      cases r with
      | ok a =>
        rcases (h2 a).run c' d' hE' with ⟨h, e⟩ | h
        · exact .inl ⟨hk.1 h, e⟩
        · exact .inr h
      | err e => exact .inr ⟨rfl, hE'⟩
      | panic e => exact .inr ⟨rfl, hE'⟩
      | diverge => exact .inr ⟨rfl, hE'⟩

theorem ref_get {f g : σ → SM σ β} (hk : ∀ c, S (f c c).2 ↔ S c) (h : ∀ c d, E c d → Ref E S (f c) (g d)) :
    Ref E S (get >>= f) (get >>= g) := ⟨hk, fun c d hE => (h c d hE).run c d hE⟩

theorem ref_ite {p : Prop} [Decidable p] {m n m' n' : SM σ α} (h1 : Ref E S m m') (h2 : Ref E S n n') :
    Ref E S (if p then m else n) (if p then m' else n') := by
  split
  · exact h1
  · exact h2

end Ref

/-! ### The two cursors -/

/-- Another mode and log. -/
def PathCursor.ml (m : ErrorMode) (l : List Msg) (c : PathCursor F) : PathCursor F := { c with errorMode := m, log := l }

/-- Another mode and log. -/
def Cursor.ml (m : ErrorMode) (l : List Msg) (c : Cursor F) : Cursor F := { c with pc := c.pc.ml m l }

/-- The second cursor is the first in another, not strict, mode; if the first is strict, the second has logged nothing
(its log is `l0`). -/
def EP (l0 : List Msg) (c d : PathCursor F) : Prop :=
  ∃ m l, d = c.ml m l ∧ m ≠ .strict ∧ (c.errorMode = .strict → l = l0)

def SP (c : PathCursor F) : Prop := c.errorMode = .strict

def EC (l0 : List Msg) (c d : Cursor F) : Prop :=
  ∃ m l, d = c.ml m l ∧ m ≠ .strict ∧ (c.pc.errorMode = .strict → l = l0)

def SC (c : Cursor F) : Prop := c.pc.errorMode = .strict

/-- A program that does not look at the mode and the log. -/
structure Blind {α : Type} (m : CM F α) : Prop where
  mode : ∀ c, (m c).2.pc.errorMode = c.pc.errorMode
  run : ∀ c k l, m (c.ml k l) = ((m c).1, (m c).2.ml k l)

structure BlindP {α : Type} (m : PM F α) : Prop where
  mode : ∀ c, (m c).2.errorMode = c.errorMode
  run : ∀ c k l, m (c.ml k l) = ((m c).1, (m c).2.ml k l)

variable {l0 : List Msg} {α β : Type}

theorem blind_ref {m : CM F α} (h : Blind m) : Ref (EC l0) SC m m := by
  refine ⟨fun c => by simp only [SC, h.mode c], fun c d hE => .inr ?_⟩
  obtain ⟨k, l, rfl, hk, hl⟩ := hE
  rw [h.run]
  exact ⟨rfl, k, l, rfl, hk, fun hs => hl (by rwa [h.mode c] at hs)⟩

theorem blindP_ref {m : PM F α} (h : BlindP m) : Ref (EP l0) SP m m := by
  refine ⟨fun c => by simp only [SP, h.mode c], fun c d hE => .inr ?_⟩
  obtain ⟨k, l, rfl, hk, hl⟩ := hE
  rw [h.run]
  exact ⟨rfl, k, l, rfl, hk, fun hs => hl (by rwa [h.mode c] at hs)⟩

theorem blind_modify {f : Cursor F → Cursor F} (h1 : ∀ c, (f c).pc.errorMode = c.pc.errorMode)
    (h2 : ∀ c k l, f (c.ml k l) = (f c).ml k l) : Blind (modify f) :=
  ⟨h1, fun c k l => by rw [SM.modify_run, SM.modify_run, h2]⟩

theorem blindP_modify {f : PathCursor F → PathCursor F} (h1 : ∀ c, (f c).errorMode = c.errorMode)
    (h2 : ∀ c k l, f (c.ml k l) = (f c).ml k l) : BlindP (modify f) :=
  ⟨h1, fun c k l => by rw [SM.modify_run, SM.modify_run, h2]⟩

theorem blindP_pure (a : α) : BlindP (pure a : PM F α) := ⟨fun _ => rfl, fun _ _ _ => rfl⟩
theorem blindP_throw (a : Err) : BlindP (throw a : PM F α) := ⟨fun _ => rfl, fun _ _ _ => rfl⟩
theorem blind_pure (a : α) : Blind (pure a : CM F α) := ⟨fun _ => rfl, fun _ _ _ => rfl⟩
theorem blind_throw (a : Err) : Blind (throw a : CM F α) := ⟨fun _ => rfl, fun _ _ _ => rfl⟩
theorem blind_lift (a : Res α) : Blind (lift a : CM F α) := ⟨fun _ => rfl, fun _ _ _ => rfl⟩
theorem blind_panic (a : Site) : Blind (panic a : CM F α) := ⟨fun _ => rfl, fun _ _ _ => rfl⟩
theorem blind_diverge : Blind (diverge : CM F α) := ⟨fun _ => rfl, fun _ _ _ => rfl⟩

theorem blindP_bind {m : PM F α} {f : α → PM F β} (h1 : BlindP m) (h2 : ∀ a, BlindP (f a)) : BlindP (m >>= f) := by
  refine ⟨fun c => ?_, fun c k l => ?_⟩
  · have h := h1.mode c
    rw [SM.bind_run]
    rcases hr : m c with ⟨r, c'⟩
    rw [hr] at h
    cases r with
    | ok a => exact ((h2 a).mode c').trans h
    | _ => exact h
  · rw [SM.bind_run, SM.bind_run, h1.run]
    rcases hr : m c with ⟨r, c'⟩
    cases r with
    | ok a => exact (h2 a).run c' k l
    | _ => rfl

theorem blind_bind {m : CM F α} {f : α → CM F β} (h1 : Blind m) (h2 : ∀ a, Blind (f a)) : Blind (m >>= f) := by
  refine ⟨fun c => ?_, fun c k l => ?_⟩
  · have h := h1.mode c
    rw [SM.bind_run]
    rcases hr : m c with ⟨r, c'⟩
    rw [hr] at h
    cases r with
    | ok a => exact ((h2 a).mode c').trans h
    | _ => exact h
  · rw [SM.bind_run, SM.bind_run, h1.run]
    rcases hr : m c with ⟨r, c'⟩
    cases r with
    | ok a => exact (h2 a).run c' k l
    | _ => rfl

/-- `get`, when what follows does not look at the mode and the log of the state it got. -/
theorem blindP_get {f : PathCursor F → PM F β} (h1 : ∀ c, BlindP (f c)) (h2 : ∀ c k l, f (c.ml k l) = f c) :
    BlindP (get >>= f) := by
  refine ⟨fun c => (h1 c).mode c, fun c k l => ?_⟩
  rw [SM.bind_run, SM.bind_run, SM.get_run, SM.get_run]
  dsimp only
  rw [h2]
  exact (h1 c).run c k l

theorem blind_get {f : Cursor F → CM F β} (h1 : ∀ c, Blind (f c)) (h2 : ∀ c k l, f (c.ml k l) = f c) : Blind (get >>= f) := by
  refine ⟨fun c => (h1 c).mode c, fun c k l => ?_⟩
  rw [SM.bind_run, SM.bind_run, SM.get_run, SM.get_run]
  dsimp only
  rw [h2]
  exact (h1 c).run c k l

theorem blind_ite {p : Prop} [Decidable p] {m n : CM F α} (h1 : Blind m) (h2 : Blind n) : Blind (if p then m else n) := by
  split
  · exact h1
  · exact h2

theorem blindP_ite {p : Prop} [Decidable p] {m n : PM F α} (h1 : BlindP m) (h2 : BlindP n) : BlindP (if p then m else n) := by
  split
  · exact h1
  · exact h2

theorem blind_attrLoop {step : β → Attr → CM F β} (hs : ∀ b a, Blind (step b a)) :
    ∀ (as : List Attr) (b : β), Blind (attrLoop step b as)
  | [], _ => blind_pure _
  | a :: as, b => by
    rw [attrLoop]
    exact blind_bind (hs b a) fun b' => blind_attrLoop hs as b'

theorem ref_attrLoop {step : β → Attr → CM F β} (hs : ∀ b a, Ref (EC l0) SC (step b a) (step b a)) :
    ∀ (as : List Attr) (b : β), Ref (EC l0) SC (attrLoop step b as) (attrLoop step b as)
  | [], _ => ref_pure _
  | a :: as, b => by
    rw [attrLoop]
    exact ref_bind (hs b a) fun b' => ref_attrLoop hs as b'

theorem ref_onPath {m n : PM F α} (h : Ref (EP l0) SP m n) : Ref (EC l0) SC (onPath m) (onPath n) := by
  refine ⟨fun c => h.keep c.pc, fun c d hE => ?_⟩
  obtain ⟨k, l, rfl, hk, hl⟩ := hE
  unfold onPath
  rcases h.run c.pc (c.pc.ml k l) ⟨k, l, rfl, hk, hl⟩ with h | ⟨h, k', l', h1, h2, h3⟩
  · exact .inl h
  · refine .inr ⟨h, k', l', ?_, h2, h3⟩
    show ({ c.ml k l with pc := (n (c.pc.ml k l)).2 } : Cursor F) = _
    rw [h1]
    rfl

theorem blind_onPath {m : PM F α} (h : BlindP m) : Blind (onPath m) := by
  refine ⟨fun c => h.mode c.pc, fun c k l => ?_⟩
  show ((m (c.pc.ml k l)).1, ({ c.ml k l with pc := (m (c.pc.ml k l)).2 } : Cursor F)) = _
  rw [h.run]
  rfl

/-! ### Path data -/

theorem getPoints_blind (s : Str) : BlindP (getPoints s : PM F Unit) := by
  obtain ⟨b, ps, h⟩ := getPoints_frame (F := F) s
  exact ⟨fun c => by rw [h], fun c k l => by rw [h, h]; rfl⟩

theorem hasSets_blind (sz : Nat) (rel : Bool) : BlindP (hasSetsOrMore sz rel : PM F Bool) := by
  unfold hasSetsOrMore
  refine blindP_get (fun c => ?_) fun c k l => rfl
  refine blindP_ite (blindP_pure _) ?_
  exact blindP_ite (blindP_bind (blindP_modify (fun _ => rfl) fun _ _ _ => rfl) fun _ => blindP_pure _) (blindP_pure _)

theorem lineOps_ml (k : ErrorMode) (l : List Msg) (c : PathCursor F) : ∀ ps, lineOps (c.ml k l) ps = lineOps c ps
  | x :: y :: ps => by rw [lineOps, lineOps, lineOps_ml k l c ps]; rfl
  | [_] => rfl
  | [] => rfl

theorem quadOps_ml (k : ErrorMode) (l : List Msg) (c : PathCursor F) : ∀ ps, quadOps (c.ml k l) ps = quadOps c ps
  | x1 :: y1 :: x :: y :: ps => by rw [quadOps, quadOps, quadOps_ml k l c ps]; rfl
  | [_, _, _] => rfl
  | [_, _] => rfl
  | [_] => rfl
  | [] => rfl

theorem cubicOps_ml (k : ErrorMode) (l : List Msg) (c : PathCursor F) : ∀ ps, cubicOps (c.ml k l) ps = cubicOps c ps
  | x1 :: y1 :: x2 :: y2 :: x :: y :: ps => by rw [cubicOps, cubicOps, cubicOps_ml k l c ps]; rfl
  | [_, _, _, _, _] => rfl
  | [_, _, _, _] => rfl
  | [_, _, _] => rfl
  | [_, _] => rfl
  | [_] => rfl
  | [] => rfl

theorem reflectQuad_ml (c : PathCursor F) (k : ErrorMode) (l : List Msg) :
    reflectControlQuad (c.ml k l) = (reflectControlQuad c).ml k l ∧ (reflectControlQuad c).errorMode = c.errorMode := by
  unfold reflectControlQuad
  rw [show (c.ml k l).lastKey = c.lastKey from rfl]
  by_cases h : c.lastKey ∈ ['q', 'Q', 'T', 't']
  · rw [if_pos h, if_pos h]; exact ⟨rfl, rfl⟩
  · rw [if_neg h, if_neg h]; exact ⟨rfl, rfl⟩

theorem reflectCube_ml (c : PathCursor F) (k : ErrorMode) (l : List Msg) :
    reflectControlCube (c.ml k l) = (reflectControlCube c).ml k l ∧ (reflectControlCube c).errorMode = c.errorMode := by
  unfold reflectControlCube
  rw [show (c.ml k l).lastKey = c.lastKey from rfl]
  by_cases h : c.lastKey ∈ ['c', 'C', 's', 'S']
  · rw [if_pos h, if_pos h]; exact ⟨rfl, rfl⟩
  · rw [if_neg h, if_neg h]; exact ⟨rfl, rfl⟩

theorem smoothQuad_ml (key : Char) (k : ErrorMode) (l : List Msg) : ∀ (ps : List F) (c : PathCursor F),
    smoothQuadLoop key (c.ml k l) ps = (smoothQuadLoop key c ps).ml k l ∧ (smoothQuadLoop key c ps).errorMode = c.errorMode
  | x :: y :: ps, c => by
    obtain ⟨h1, h2⟩ := reflectQuad_ml c k l
    rw [smoothQuadLoop, smoothQuadLoop, h1]
    obtain ⟨g1, g2⟩ := smoothQuad_ml key k l ps { (reflectControlQuad c).addOps
      [.quadTo ((reflectControlQuad c).fixPt (reflectControlQuad c).cntlPtX (reflectControlQuad c).cntlPtY)
        ((reflectControlQuad c).fixPt x y)] with lastKey := key, placeX := x, placeY := y }
    exact ⟨g1, g2.trans h2⟩
  | [_], c => ⟨rfl, rfl⟩
  | [], c => ⟨rfl, rfl⟩

theorem smoothCube_ml (key : Char) (k : ErrorMode) (l : List Msg) : ∀ (ps : List F) (c : PathCursor F),
    smoothCubeLoop key (c.ml k l) ps = (smoothCubeLoop key c ps).ml k l ∧ (smoothCubeLoop key c ps).errorMode = c.errorMode
  | x2 :: y2 :: x :: y :: ps, c => by
    obtain ⟨h1, h2⟩ := reflectCube_ml c k l
    rw [smoothCubeLoop, smoothCubeLoop, h1]
    obtain ⟨g1, g2⟩ := smoothCube_ml key k l ps { (reflectControlCube c).addOps
      [.cubicTo ((reflectControlCube c).fixPt (reflectControlCube c).cntlPtX (reflectControlCube c).cntlPtY)
        ((reflectControlCube c).fixPt x2 y2) ((reflectControlCube c).fixPt x y)] with
        lastKey := key, cntlPtX := x2, cntlPtY := y2, placeX := x, placeY := y }
    exact ⟨g1, g2.trans h2⟩
  | [_, _, _], c => ⟨rfl, rfl⟩
  | [_, _], c => ⟨rfl, rfl⟩
  | [_], c => ⟨rfl, rfl⟩
  | [], c => ⟨rfl, rfl⟩

theorem addArcFromA_ml (i : Nat) (c : PathCursor F) (k : ErrorMode) (l : List Msg) :
    addArcFromA i (c.ml k l) = (addArcFromA i c).ml k l ∧ (addArcFromA i c).errorMode = c.errorMode := ⟨rfl, rfl⟩

theorem arcLoop_ml (key : Char) (k : ErrorMode) (l : List Msg) : ∀ (n i : Nat) (c : PathCursor F),
    arcLoop key n i (c.ml k l) = (arcLoop key n i c).ml k l ∧ (arcLoop key n i c).errorMode = c.errorMode
  | 0, _, c => ⟨rfl, rfl⟩
  | n + 1, i, c => by
    rw [arcLoop, arcLoop]
    by_cases h : key = 'a'
    · rw [if_pos h, if_pos h]
      exact arcLoop_ml key k l n (i + 7) (addArcFromA i { c with
          points := (c.points.set (i + 5) (at_ c.points (i + 5) +. c.placeX)).set (i + 6)
            (at_ c.points (i + 6) +. c.placeY) })
    · rw [if_neg h, if_neg h]
      exact arcLoop_ml key k l n (i + 7) (addArcFromA i c)

theorem segSwitch_ref (k : Char) : Ref (EP l0) SP (segSwitch k : PM F Unit) (segSwitch k) := by
  have set : ∀ (sz : Nat) (rel : Bool) (f : PathCursor F → PathCursor F), (∀ c, (f c).errorMode = c.errorMode) →
      (∀ c m l, f (c.ml m l) = (f c).ml m l) →
      BlindP (do if !(← hasSetsOrMore sz rel) then throw .paramMismatch
                 modify f : PM F Unit) := fun sz rel f h1 h2 =>
    blindP_bind (hasSets_blind sz rel) fun b => blindP_ite (blindP_bind (blindP_throw _) fun _ => blindP_modify h1 h2)
      (blindP_modify h1 h2)
  have hz : BlindP (do
      let c ← get
      if c.points.length ≠ 0 then throw .paramMismatch
      if c.inPath then
        modify fun c => { c.addOps [.close] with placeX := c.pathStartX, placeY := c.pathStartY, inPath := false } : PM F Unit) := by
    refine blindP_get (fun c => ?_) fun c k l => rfl
    have : BlindP (if c.inPath = true then
        modify fun c => { c.addOps [.close] with placeX := c.pathStartX, placeY := c.pathStartY, inPath := false }
      else pure () : PM F Unit) := blindP_ite (blindP_modify (fun _ => rfl) fun _ _ _ => rfl) (blindP_pure _)
    exact blindP_ite (blindP_bind (blindP_throw _) fun _ => this) this
  have hm : ∀ rel, BlindP (do
      if !(← hasSetsOrMore 2 rel) then throw .paramMismatch
      modify fun c =>
        let sx := at_ c.points 0
        let sy := at_ c.points 1
        let c := { c with pathStartX := sx, pathStartY := sy, inPath := true }
        let c := c.addOps (.moveTo (c.fixPt sx sy) :: lineOps c (c.points.drop 2))
        { c with placeX := fromEnd c.points 2, placeY := fromEnd c.points 1 } : PM F Unit) := fun rel =>
    set 2 rel _ (fun _ => rfl) fun c m l =>
      congrArg (fun ops => (({ ({ c with pathStartX := at_ c.points 0, pathStartY := at_ c.points 1, inPath := true } :
        PathCursor F).addOps (.moveTo (c.fixPt (at_ c.points 0) (at_ c.points 1)) :: ops) with
          placeX := fromEnd c.points 2, placeY := fromEnd c.points 1 } : PathCursor F)).ml m l)
        (lineOps_ml m l { c with pathStartX := at_ c.points 0, pathStartY := at_ c.points 1, inPath := true } (c.points.drop 2))
  have hl : ∀ rel, BlindP (do
      if !(← hasSetsOrMore 2 rel) then throw .paramMismatch
      modify fun c =>
        let c := c.addOps (lineOps c c.points)
        { c with placeX := fromEnd c.points 2, placeY := fromEnd c.points 1 } : PM F Unit) := fun rel =>
    set 2 rel _ (fun _ => rfl) fun c m l =>
      congrArg (fun ops => (({ c.addOps ops with
          placeX := fromEnd c.points 2, placeY := fromEnd c.points 1 } : PathCursor F)).ml m l) (lineOps_ml m l c c.points)
  have hv : ∀ k' : Char, BlindP (do
      if k' = 'v' then modify fun c => { c with points := valsToAbs c.placeY c.points }
      if !(← hasSetsOrMore 1 false) then throw .paramMismatch
      modify fun c =>
        let c := c.addOps (c.points.map fun p => .lineTo (c.fixPt c.placeX p))
        { c with placeY := fromEnd c.points 1 } : PM F Unit) := fun k' => by
    have h := set 1 false (fun c => { c.addOps (c.points.map fun p => .lineTo (c.fixPt c.placeX p)) with
      placeY := fromEnd c.points 1 }) (fun _ => rfl) fun _ _ _ => rfl
    exact blindP_ite (blindP_bind (blindP_modify (fun _ => rfl) fun _ _ _ => rfl) fun _ => h) h
  have hh : ∀ k' : Char, BlindP (do
      if k' = 'h' then modify fun c => { c with points := valsToAbs c.placeX c.points }
      if !(← hasSetsOrMore 1 false) then throw .paramMismatch
      modify fun c =>
        let c := c.addOps (c.points.map fun p => .lineTo (c.fixPt p c.placeY))
        { c with placeX := fromEnd c.points 1 } : PM F Unit) := fun k' => by
    have h := set 1 false (fun c => { c.addOps (c.points.map fun p => .lineTo (c.fixPt p c.placeY)) with
      placeX := fromEnd c.points 1 }) (fun _ => rfl) fun _ _ _ => rfl
    exact blindP_ite (blindP_bind (blindP_modify (fun _ => rfl) fun _ _ _ => rfl) fun _ => h) h
  have hq : ∀ rel, BlindP (do
      if !(← hasSetsOrMore 4 rel) then throw .paramMismatch
      modify fun c =>
        let c := c.addOps (quadOps c c.points)
        { c with
          cntlPtX := fromEnd c.points 4, cntlPtY := fromEnd c.points 3
          placeX := fromEnd c.points 2, placeY := fromEnd c.points 1 } : PM F Unit) := fun rel =>
    set 4 rel _ (fun _ => rfl) fun c m l =>
      congrArg (fun ops => (({ c.addOps ops with
          cntlPtX := fromEnd c.points 4, cntlPtY := fromEnd c.points 3
          placeX := fromEnd c.points 2, placeY := fromEnd c.points 1 } : PathCursor F)).ml m l) (quadOps_ml m l c c.points)
  have hc : ∀ rel, BlindP (do
      if !(← hasSetsOrMore 6 rel) then throw .paramMismatch
      modify fun c =>
        let c := c.addOps (cubicOps c c.points)
        { c with
          cntlPtX := fromEnd c.points 4, cntlPtY := fromEnd c.points 3
          placeX := fromEnd c.points 2, placeY := fromEnd c.points 1 } : PM F Unit) := fun rel =>
    set 6 rel _ (fun _ => rfl) fun c m l =>
      congrArg (fun ops => (({ c.addOps ops with
          cntlPtX := fromEnd c.points 4, cntlPtY := fromEnd c.points 3
          placeX := fromEnd c.points 2, placeY := fromEnd c.points 1 } : PathCursor F)).ml m l) (cubicOps_ml m l c c.points)
  have ht : ∀ rel k', BlindP (do
      if !(← hasSetsOrMore 2 rel) then throw .paramMismatch
      modify fun c => smoothQuadLoop k' c c.points : PM F Unit) := fun rel k' =>
    set 2 rel _ (fun c => (smoothQuad_ml k' 0 [] c.points c).2) fun c m l => (smoothQuad_ml k' m l c.points c).1
  have hs : ∀ rel k', BlindP (do
      if !(← hasSetsOrMore 4 rel) then throw .paramMismatch
      modify fun c => smoothCubeLoop k' c c.points : PM F Unit) := fun rel k' =>
    set 4 rel _ (fun c => (smoothCube_ml k' 0 [] c.points c).2) fun c m l => (smoothCube_ml k' m l c.points c).1
  have ha : ∀ k', BlindP (do
      if !(← hasSetsOrMore 7 false) then throw .paramMismatch
      modify fun c => arcLoop k' (c.points.length / 7) 0 c : PM F Unit) := fun k' =>
    set 7 false _ (fun c => (arcLoop_ml k' 0 [] (c.points.length / 7) 0 c).2) fun c m l =>
      (arcLoop_ml k' m l (c.points.length / 7) 0 c).1
  unfold segSwitch
  split
  · exact blindP_ref hz
  · exact blindP_ref hz
  · exact blindP_ref (hm _)
  · exact blindP_ref (hm _)
  · exact blindP_ref (hl _)
  · exact blindP_ref (hl _)
  · exact blindP_ref (hv 'v')
  · exact blindP_ref (hv 'V')
  · exact blindP_ref (hh 'h')
  · exact blindP_ref (hh 'H')
  · exact blindP_ref (hq _)
  · exact blindP_ref (hq _)
  · exact blindP_ref (ht _ _)
  · exact blindP_ref (ht _ _)
  · exact blindP_ref (hc _)
  · exact blindP_ref (hc _)
  · exact blindP_ref (hs _ _)
  · exact blindP_ref (hs _ _)
  · exact blindP_ref (ha _)
  · exact blindP_ref (ha _)
  · refine ⟨fun c => ?_, fun c d hE => ?_⟩
    · rw [SM.bind_run, SM.get_run]
      dsimp only
      by_cases h1 : c.errorMode = .strict
      · rw [if_pos h1]; rfl
      · rw [if_neg h1]
        by_cases h2 : c.errorMode = .warn
        · rw [if_pos h2]; rfl
        · rw [if_neg h2]; rfl
    · obtain ⟨m, l, rfl, hm, hl⟩ := hE
      rw [SM.bind_run, SM.get_run, SM.bind_run, SM.get_run]
      dsimp only
      by_cases h1 : c.errorMode = .strict
      · rw [if_pos h1]; exact .inl ⟨h1, fun _ h => by cases h⟩
      · right
        rw [if_neg h1, if_neg (show ¬ (c.ml m l).errorMode = .strict from hm)]
        have h1' : ∀ l', c.errorMode = .strict → l' = l0 := fun _ h => absurd h h1
        by_cases h2 : c.errorMode = .warn
        · rw [if_pos h2]
          by_cases h3 : m = .warn
          · rw [if_pos (show (c.ml m l).errorMode = .warn from h3)]; exact ⟨rfl, m, _, rfl, hm, h1' _⟩
          · rw [if_neg (show ¬ (c.ml m l).errorMode = .warn from h3)]; exact ⟨rfl, m, l, rfl, hm, h1' _⟩
        · rw [if_neg h2]
          by_cases h3 : m = .warn
          · rw [if_pos (show (c.ml m l).errorMode = .warn from h3)]; exact ⟨rfl, m, _, rfl, hm, h1' _⟩
          · rw [if_neg (show ¬ (c.ml m l).errorMode = .warn from h3)]; exact ⟨rfl, m, l, rfl, hm, h1' _⟩

theorem addSeg_ref (t : Str) : Ref (EP l0) SP (addSeg t : PM F Unit) (addSeg t) := by
  cases t with
  | nil => exact ref_pure _
  | cons k body =>
    exact ref_bind (blindP_ref (getPoints_blind body)) fun _ => ref_bind (segSwitch_ref k) fun _ =>
      blindP_ref (blindP_modify (fun _ => rfl) fun _ _ _ => rfl)

theorem compileGo_ref : ∀ (s : Str) (cur : Option Str), Ref (EP l0) SP (compileGo cur s : PM F Unit) (compileGo cur s)
  | [], none => ref_pure _
  | [], some seg => addSeg_ref seg
  | v :: vs, cur => by
    rw [compileGo]
    refine ref_ite ?_ (compileGo_ref vs _)
    cases cur with
    | none => exact compileGo_ref vs _
    | some seg => exact ref_bind (addSeg_ref seg) fun _ => compileGo_ref vs _

theorem compilePath_ref (s : Str) : Ref (EP l0) SP (compilePath s : PM F Unit) (compilePath s) :=
  ref_bind (blindP_ref (blindP_modify (fun _ => rfl) fun _ _ _ => rfl)) fun _ => compileGo_ref s none

end GoSvg
