import Verif.Props.Strokes
import Verif.Spec.Canvas

/-! # C87: every painting covers the outline of its own path -/

namespace GoSvg

open Spec

variable {F : Type} [GoFloat F] [GoEnv]

section General

variable {C P W σ E : Type} {step : Brush P W → C → Brush P W × List (Painted P W)} {trail : σ → C → σ} {outline : σ → C → E}

theorem pictured_append (b : Brush P W) (t : σ) (as bs : List C) : pictured step trail outline b t (as ++ bs) =
    pictured step trail outline b t as ++ pictured step trail outline (brushAfter step b as) (as.foldl trail t) bs := by
  induction as generalizing b t with
  | nil => rfl
  | cons a as ih => rw [List.cons_append, pictured, pictured, ih, List.append_assoc]; rfl

/-- calls that paint nothing -/
theorem pictured_silent {cs : List C} (h : ∀ c ∈ cs, ∀ b, (step b c).2 = []) (b : Brush P W) (t : σ) :
    pictured step trail outline b t cs = [] ∧ painted step b cs = [] := by
  induction cs generalizing b t with
  | nil => exact ⟨rfl, rfl⟩
  | cons c cs ih =>
    have ih := ih (fun c hc => h c (List.mem_cons_of_mem _ hc)) (step b c).1 (trail t c)
    rw [pictured, painted, h c List.mem_cons_self b, ih.1, ih.2]
    exact ⟨rfl, rfl⟩

/-- Silent calls and then a painting one: everything is painted with the outline left by the first. -/
theorem pictured_last {cs : List C} (h : ∀ c ∈ cs, ∀ b, (step b c).2 = []) (c : C) (b : Brush P W) (t : σ) :
    pictured step trail outline b t (cs ++ [c]) = (painted step b (cs ++ [c])).map fun x => (outline (cs.foldl trail t) c, x) := by
  rw [pictured_append, painted_append, (pictured_silent h b t).1, (pictured_silent (trail := trail) (outline := outline) h b t).2]
  simp [pictured, painted]

/-- What is painted for the elements of a list one after the other, when each leaves the movements such that the next is painted right; `K` is what
is kept of a painting. -/
theorem pictured_flatMap {α X : Type} {f : α → List C} (K : Painted P W → X) {g : α → List X} {o : α → E} {l : List α} (I : σ → Prop)
    (h : ∀ a ∈ l, ∀ b t, I t → I ((f a).foldl trail t) ∧ (painted step b (f a)).map K = g a ∧
      pictured step trail outline b t (f a) = (painted step b (f a)).map fun x => (o a, x))
    (b : Brush P W) {t : σ} (ht : I t) : (pictured step trail outline b t (l.flatMap f)).map (fun x => (x.1, K x.2)) =
      l.flatMap fun a => (g a).map fun x => (o a, x) := by
  induction l generalizing b t with
  | nil => rfl
  | cons a l ih =>
    obtain ⟨h1, h2, h3⟩ := h a List.mem_cons_self b t ht
    rw [List.flatMap_cons, pictured_append, List.map_append, h3, ih (fun a ha => h a (List.mem_cons_of_mem _ ha)) _ h1, List.flatMap_cons, ← h2,
      List.map_map, List.map_map]
    rfl

end General

/-! ### draw2d -/

theorem d2_silent_pen (m : Matrix2D F) (path : Path) : ∀ c ∈ path.flatMap (fun op => Draw2d.drawTo op m), ∀ b, (d2Step b c).2 = [] :=
  fun c hc b => by rw [d2_quiet m path c hc b]

theorem d2_trail_pen (m : Matrix2D F) (path : Path) (t : List (Event F)) : (path.flatMap fun op => Draw2d.drawTo op m).foldl d2Trail t =
    if path.any Op.isMove then outlineUnder m (lastSubpath path) else t ++ outlineUnder m path := by
  induction path generalizing t with
  | nil => simp [outlineUnder]
  | cons op path ih =>
    rw [List.flatMap_cons, List.foldl_append, ih]
    by_cases hp : path.any Op.isMove
    · rw [if_pos hp, if_pos (by rw [List.any_cons, hp, Bool.or_true]), lastSubpath, if_pos hp]
    · rw [if_neg hp, List.any_cons]
      cases op <;> simp [Op.isMove, hp, lastSubpath, outlineUnder, Draw2d.drawTo, d2Trail, d2Events, penOf, px, ofFix, Matrix2D.moveTo,
        Matrix2D.lineTo, Matrix2D.quadTo, Matrix2D.cubicTo]

theorem d2_path_pictured (p : SvgPath F) (opt : RenderOptions F) (hp : Begun p.path) (b : Brush Color F) (t : List (Event F)) :
    d2Picture b t (Draw2d.drawTransformed p opt) = (painted d2Step b (Draw2d.drawTransformed p opt)).map fun x =>
      (outlineUnder (p.style.transform.mult opt.target) (lastSubpath p.path), x) := by
  have hm : p.path.any Op.isMove = true := by obtain ⟨a, r, e⟩ := hp; rw [e]; rfl
  unfold Draw2d.drawTransformed d2Picture
  dsimp only
  generalize hm' : p.style.transform.mult opt.target = m
  have pen := d2_silent_pen m p.path
  have tr := d2_trail_pen m p.path
  simp only [hm, if_true] at tr
  generalize hq : p.path.flatMap (fun op => Draw2d.drawTo op m) = q at pen tr
  rcases p.style.fillerColor with _ | f <;> rcases p.style.linerColor with _ | l <;> dsimp only
  · simp only [List.nil_append, List.append_nil]
    rw [(pictured_silent pen b t).1, (pictured_silent (trail := d2Trail) (outline := fun t _ => t) pen b t).2]; rfl
  all_goals
    rw [pictured_last]
    · simp only [List.foldl_append, tr]
    · intro c hc b
      simp only [List.mem_append, List.mem_cons, List.not_mem_nil, or_false, false_or] at hc
      first
        | exact pen c hc b
        | (rcases hc with hc | hc
           · first
              | (rcases hc with rfl | rfl <;> rfl)
              | (rcases hc with rfl | rfl | rfl | rfl | rfl <;> rfl)
              | (rcases hc with (rfl | rfl) | rfl | rfl | rfl | rfl | rfl <;> rfl)
           · exact pen c hc b)

theorem d2_kinds (p : SvgPath F) (opt : RenderOptions F) (b : Brush Color F) :
    (painted d2Step b (Draw2d.drawTransformed p opt)).map Painted.kind = paintOf p.style := by
  unfold Draw2d.drawTransformed paintOf
  dsimp only
  have pen := painted_quiet (d2_quiet (p.style.transform.mult opt.target) p.path)
  generalize p.path.flatMap (fun op => Draw2d.drawTo op (p.style.transform.mult opt.target)) = q at pen
  rcases p.style.fillerColor with _ | f <;> rcases p.style.linerColor with _ | l <;>
    simp [painted, d2Step, painted_append, (pen _).1, (pen _).2, Painted.kind]

/-- What is kept of the paintings of draw2d, with the outlines: of each path those of its last subpath. -/
theorem d2_pictured {X : Type} (K : Painted Color F → X) (g : SvgPath F → List X) {s : Svg F} {opts : List (RenderOption F)}
    (hg : ∀ p ∈ s.svgPaths, ∀ b, (painted d2Step b (Draw2d.drawTransformed p (options s.viewBox opts))).map K = g p)
    (h : ∀ p ∈ s.svgPaths, Begun p.path) (b : Brush Color F) (t : List (Event F)) :
    (d2Picture b t (Draw2d.draw s opts)).map (fun x => (x.1, K x.2)) = s.svgPaths.flatMap fun p => (g p).map fun x =>
      (outlineUnder (p.style.transform.mult (options s.viewBox opts).target) (lastSubpath p.path), x) :=
  pictured_flatMap K (fun _ => True) (fun p hp b t _ => ⟨trivial, hg p hp b, d2_path_pictured p _ (h p hp) b t⟩) b trivial

/-- C87 for draw2d, what is true of all paths that begin with a move: what is painted is the *last subpath* of the path. -/
theorem C87_draw2d_last {s : Svg F} {opts : List (RenderOption F)} (h : ∀ p ∈ s.svgPaths, Begun p.path) (b : Brush Color F) (t : List (Event F)) :
    covered (d2Picture b t (Draw2d.draw s opts)) = s.svgPaths.flatMap fun p => (paintOf p.style).map fun k =>
      (outlineUnder (p.style.transform.mult (options s.viewBox opts).target) (lastSubpath p.path), k) :=
  d2_pictured Painted.kind _ (fun p _ b => d2_kinds p _ b) h b t

omit [GoFloat F] [GoEnv] in
theorem lastSubpath_single {path : Path} (h : Single path) : lastSubpath path = path := by
  obtain ⟨a, r, rfl, h⟩ := h
  rw [lastSubpath, if_neg]
  rw [List.any_eq_true]
  rintro ⟨op, h1, h2⟩
  cases op <;> first | exact h _ h1 _ rfl | exact nomatch h2

/-- C87 for draw2d: every fill and every stroke covers the outline of its own path and nothing else, whatever was in the context before. Partial:
paths of one subpath. Full claim: all paths; false, see `C87_draw2d_false`. -/
theorem C87_draw2d_partial {s : Svg F} {opts : List (RenderOption F)} (h : ∀ p ∈ s.svgPaths, Single p.path) (b : Brush Color F)
    (t : List (Event F)) : covered (d2Picture b t (Draw2d.draw s opts)) = s.svgPaths.flatMap fun p => (paintOf p.style).map fun k =>
      (outlineUnder (p.style.transform.mult (options s.viewBox opts).target) p.path, k) := by
  rw [C87_draw2d_last (fun p hp => (h p hp).imp fun a ⟨r, h, _⟩ => ⟨r, h⟩)]
  rw [List.flatMap_def, List.flatMap_def]
  congr 1
  refine List.map_congr_left fun p hp => ?_
  rw [lastSubpath_single (h p hp)]

/-! ### rasterx -/

/-- The movements before a path and those of the path, in one list; some of them are in a subpath that is not stopped. -/
theorem rx_made_pen (m : Matrix2D F) (path : Path) (t : List (Event F) × List (Event F)) :
    ∃ u v, (path.flatMap fun op => Rx.drawTo op m).foldl rxMade t = (u, v) ∧ u ++ v = t.1 ++ t.2 ++ outlineUnder m path := by
  induction path generalizing t with
  | nil => exact ⟨t.1, t.2, rfl, by simp [outlineUnder]⟩
  | cons op path ih =>
    obtain ⟨u, v, h1, h2⟩ := ih ((Rx.drawTo op m).foldl rxMade t)
    refine ⟨u, v, by rw [List.flatMap_cons, List.foldl_append, h1], h2.trans ?_⟩
    cases op <;> simp [outlineUnder, Rx.drawTo, rxMade, rxEvents, penOf, Matrix2D.moveTo, Matrix2D.lineTo, Matrix2D.quadTo, Matrix2D.cubicTo]

theorem rx_trail_made (f : Bool) (cs : List (RxCall F)) (t : (List (Event F) × List (Event F)) × (List (Event F) × List (Event F))) :
    (cs.map fun x => (f, x)).foldl rxTrail t = if f then (cs.foldl rxMade t.1, t.2) else (t.1, cs.foldl rxMade t.2) := by
  induction cs generalizing t with
  | nil => cases f <;> rfl
  | cons c cs ih => rw [List.map_cons, List.foldl_cons, ih]; cases f <;> rfl

/-- When the path is stopped all its movements are there. -/
theorem rx_trail_pen (f : Bool) (m : Matrix2D F) (path : Path) (t : (List (Event F) × List (Event F)) × (List (Event F) × List (Event F)))
    (ht : (if f then t.1 else t.2) = ([], [])) :
    rxOutline (rxTrail (((path.flatMap fun op => Rx.drawTo op m).map fun x => (f, x)).foldl rxTrail t) (f, .stop false)) (f, .draw) =
      outlineUnder m path := by
  obtain ⟨u, v, h1, h2⟩ := rx_made_pen m path ([], [])
  rw [rx_trail_made]
  cases f
  · replace ht : t.2 = _ := ht
    simpa [rxTrail, rxOutline, rxMade, ht, h1] using h2
  · replace ht : t.1 = _ := ht
    simpa [rxTrail, rxOutline, rxMade, ht, h1] using h2

theorem rx_fill_pictured [RxEnv F] (p : SvgPath F) (m : Matrix2D F) (opt : RenderOptions F) (b : Brush (RxPaint F) Int)
    (t : (List (Event F) × List (Event F)) × (List (Event F) × List (Event F))) : rxPicture b t (Rx.fillCalls p m opt) =
      (painted rxStep b (Rx.fillCalls p m opt)).map fun x => (outlineUnder m p.path, x) := by
  unfold Rx.fillCalls rxPicture
  have pen := rx_quiet true m p.path
  have tr := rx_trail_pen true m p.path
  rcases p.style.fillerColor with _ | c <;> dsimp only
  · rfl
  simp only [List.map_append]
  generalize (p.path.flatMap fun op => Rx.drawTo op m).map (fun x => (true, x)) = q at pen tr
  generalize Rx.paint (F := F) _ _ _ = a
  rw [show ∀ l : RxTrace F, l ++ [(true, .setColor a), (true, .draw)] = (l ++ [(true, .setColor a)]) ++ [(true, .draw)] from fun l => by simp]
  rw [pictured_last]
  · congr 1
    funext x
    rw [← tr (([], []), t.2) rfl]
    simp [List.foldl_append, rxTrail, rxMade, rxEvents, rxOutline]
  · intro c hc b
    simp only [List.mem_append, List.map_cons, List.map_nil, List.mem_cons, List.not_mem_nil, or_false] at hc
    rcases hc with ((((rfl | rfl) | hc) | rfl) | rfl)
    · rfl
    · rfl
    · rw [pen c hc b]
    · rfl
    · rfl

theorem rx_stroke_pictured [RxEnv F] (p : SvgPath F) (m : Matrix2D F) (opt : RenderOptions F) (b : Brush (RxPaint F) Int)
    (t : (List (Event F) × List (Event F)) × (List (Event F) × List (Event F))) : rxPicture b t (Rx.strokeCalls p m opt) =
      (painted rxStep b (Rx.strokeCalls p m opt)).map fun x => (outlineUnder m p.path, x) := by
  unfold Rx.strokeCalls rxPicture
  have pen := rx_quiet false m p.path
  have tr := rx_trail_pen false m p.path
  rcases p.style.linerColor with _ | c <;> dsimp only
  · rfl
  simp only [List.map_append]
  generalize (p.path.flatMap fun op => Rx.drawTo op m).map (fun x => (false, x)) = q at pen tr
  generalize Rx.paint (F := F) _ _ _ = a
  rw [show ∀ l : RxTrace F, l ++ [(false, .setColor a), (false, .draw)] = (l ++ [(false, .setColor a)]) ++ [(false, .draw)] from fun l => by simp]
  rw [pictured_last]
  · congr 1
    funext x
    rw [← tr (t.1, ([], [])) rfl]
    simp [List.foldl_append, rxTrail, rxMade, rxEvents, rxOutline]
  · intro c hc b
    simp only [List.mem_append, List.map_cons, List.map_nil, List.mem_cons, List.not_mem_nil, or_false] at hc
    rcases hc with ((((rfl | rfl) | hc) | rfl) | rfl)
    · rfl
    · rfl
    · rw [pen c hc b]
    · rfl
    · rfl

theorem rx_path_pictured [RxEnv F] (p : SvgPath F) (opt : RenderOptions F) (b : Brush (RxPaint F) Int) (t : (List (Event F) × List (Event F)) × (List (Event F) × List (Event F))) :
    rxPicture b t (Rx.drawTransformed p opt) = (painted rxStep b (Rx.drawTransformed p opt)).map fun x =>
      (outlineUnder (p.style.transform.mult opt.target) p.path, x) := by
  unfold Rx.drawTransformed
  rw [painted_append, List.map_append, ← rx_fill_pictured _ _ _ _ t, ← rx_stroke_pictured _ _ _ _ ((Rx.fillCalls p _ opt).foldl rxTrail t)]
  exact pictured_append _ _ _ _

theorem rx_kinds [RxEnv F] (p : SvgPath F) (opt : RenderOptions F) (b : Brush (RxPaint F) Int) :
    (painted rxStep b (Rx.drawTransformed p opt)).map Painted.kind = paintOf p.style := by
  unfold Rx.drawTransformed paintOf Rx.fillCalls Rx.strokeCalls
  simp only [List.map_append]
  have p1 := painted_quiet (rx_quiet true (p.style.transform.mult opt.target) p.path)
  have p2 := painted_quiet (rx_quiet false (p.style.transform.mult opt.target) p.path)
  generalize (p.path.flatMap fun op => Rx.drawTo op (p.style.transform.mult opt.target)).map (fun x => (true, x)) = q at p1
  generalize (p.path.flatMap fun op => Rx.drawTo op (p.style.transform.mult opt.target)).map (fun x => (false, x)) = q' at p2
  rcases p.style.fillerColor with _ | f <;> rcases p.style.linerColor with _ | l <;>
    simp [painted, rxStep, painted_append, (p1 _).1, (p1 _).2, (p2 _).1, (p2 _).2, Painted.kind]

theorem rx_pictured [RxEnv F] {X : Type} (K : Painted (RxPaint F) Int → X) (g : SvgPath F → List X) {s : Svg F} {opts : List (RenderOption F)}
    (hg : ∀ p ∈ s.svgPaths, ∀ b, (painted rxStep b (Rx.drawTransformed p (options s.viewBox opts))).map K = g p)
    (b : Brush (RxPaint F) Int) (t : (List (Event F) × List (Event F)) × (List (Event F) × List (Event F))) :
    (rxPicture b t (Rx.draw s opts)).map (fun x => (x.1, K x.2)) = s.svgPaths.flatMap fun p => (g p).map fun x =>
      (outlineUnder (p.style.transform.mult (options s.viewBox opts).target) p.path, x) :=
  pictured_flatMap K (fun _ => True) (fun p hp b t _ => ⟨trivial, hg p hp b, rx_path_pictured p _ b t⟩) b trivial

/-- C87 for rasterx: every fill and every stroke covers the outline of its own path — all its subpaths, closed where the path is closed and open where
it is open — and nothing else, whatever was drawn before. -/
theorem C87_rasterx [RxEnv F] (s : Svg F) (opts : List (RenderOption F)) (b : Brush (RxPaint F) Int) (t : (List (Event F) × List (Event F)) × (List (Event F) × List (Event F))) :
    covered (rxPicture b t (Rx.draw s opts)) = s.svgPaths.flatMap fun p => (paintOf p.style).map fun k =>
      (outlineUnder (p.style.transform.mult (options s.viewBox opts).target) p.path, k) :=
  rx_pictured Painted.kind _ (fun p _ b => rx_kinds p _ b) b t

/-! ### gg -/

/-- What gg makes of a path that begins with a move: a close comes before every other move. -/
def ggOutline (m : Matrix2D F) : Path → List (Event F)
  | [] => []
  | op :: ops => penOf m.tFixed op :: ops.flatMap (withClose m)

theorem gg_trail_more (m : Matrix2D F) (path : Path) (t : List (Event F)) :
    (path.flatMap fun op => GG.drawTo op m).foldl ggTrail (t, true) = (t ++ path.flatMap (withClose m), true) := by
  induction path generalizing t with
  | nil => simp
  | cons op path ih =>
    have h : (GG.drawTo op m).foldl ggTrail (t, true) = (t ++ withClose m op, true) := by
      cases op <;> simp [GG.drawTo, ggTrail, withClose, penOf, px, ofFix, Matrix2D.moveTo, Matrix2D.lineTo, Matrix2D.quadTo, Matrix2D.cubicTo]
    rw [List.flatMap_cons, List.foldl_append, h, ih, List.flatMap_cons, List.append_assoc]

theorem gg_trail_pen (m : Matrix2D F) {path : Path} (hp : Begun path) :
    (path.flatMap fun op => GG.drawTo op m).foldl ggTrail ([], false) = (ggOutline m path, true) := by
  obtain ⟨a, r, rfl⟩ := hp
  rw [List.flatMap_cons, List.foldl_append, ggOutline]
  have : (GG.drawTo (.moveTo a) m).foldl ggTrail ([], false) = ([penOf m.tFixed (.moveTo a)], true) := by
    simp [GG.drawTo, ggTrail, penOf, px, ofFix, Matrix2D.moveTo]
  rw [this, gg_trail_more]
  rfl

/-- calls that paint nothing and move nothing -/
theorem gg_still {cs : List (GGCall F)} (h : ∀ c ∈ cs, ∀ t, ggTrail t c = t) (t : List (Event F) × Bool) : cs.foldl ggTrail t = t := by
  induction cs with
  | nil => rfl
  | cons c cs ih => rw [List.foldl_cons, h c List.mem_cons_self, ih fun c hc => h c (List.mem_cons_of_mem _ hc)]

theorem gg_path_pictured {s : Svg F} {fuel : Nat} {p : SvgPath F} {m : Matrix2D F} {o : F} {cs : List (GGCall F)}
    (h : GG.drawTransformed s fuel p m o = .ok cs) (hp : Begun p.path) (b : Brush (GGPattern F) F) :
    ggPicture b [] cs = (painted ggStep b cs).map (fun x => (ggOutline m p.path, x)) ∧
      (painted ggStep b cs).map Painted.kind = paintOf p.style ∧ (paintOf p.style ≠ [] → cs.foldl ggTrail ([], false) = ([], false)) := by
  obtain ⟨clip, fs, hf, rfl, hc⟩ := gg_transformed h
  have c1 : (∀ c ∈ clip, ∀ b, (ggStep b c).2 = []) ∧ ∀ c ∈ clip, ∀ t, ggTrail t c = t := by
    rcases hc with ⟨rfl, -⟩ | ⟨_, _, _, -, -, -, rfl⟩ <;> constructor <;> intro c h _ <;> rw [List.mem_singleton.1 h] <;>
      simp [ggStep, ggTrail, ggEvents]
  have c2 : (∀ c ∈ fs, ∀ b, (ggStep b c).2 = []) ∧ ∀ c ∈ fs, ∀ t, ggTrail t c = t := by
    unfold GG.fillSetup at hf
    split at hf
    · rw [Option.some.injEq] at hf; subst hf; exact ⟨fun _ h => (nomatch h), fun _ h => (nomatch h)⟩
    · rw [Option.some.injEq] at hf; subst hf
      constructor <;> intro c h _ <;> simp only [List.mem_cons, List.not_mem_nil, or_false] at h <;> rcases h with rfl | rfl <;>
        simp [ggStep, ggTrail, ggEvents]
    · obtain ⟨p, -, rfl⟩ := Option.map_eq_some_iff.1 hf
      constructor <;> intro c h _ <;> simp only [List.mem_cons, List.not_mem_nil, or_false] at h <;> rcases h with rfl | rfl <;>
        simp [ggStep, ggTrail, ggEvents]
  have c3 : (∀ c ∈ GG.strokeSetup p.style m o, ∀ b, (ggStep b c).2 = []) ∧ ∀ c ∈ GG.strokeSetup p.style m o, ∀ t, ggTrail t c = t := by
    unfold GG.strokeSetup
    split
    · exact ⟨fun _ h => (nomatch h), fun _ h => (nomatch h)⟩
    · constructor <;> intro c h _ <;> simp only [List.mem_cons, List.not_mem_nil, or_false] at h <;> rcases h with rfl | rfl | rfl | rfl | rfl | rfl <;>
        simp [ggStep, ggTrail, ggEvents]
  have pen : ∀ c ∈ p.path.flatMap (fun op => GG.drawTo op m), ∀ b, (ggStep b c).2 = [] := fun c hc b => by rw [gg_quiet m p.path c hc b]
  have tr := gg_trail_pen m hp
  have all : ∀ c ∈ clip ++ fs ++ GG.strokeSetup p.style m o ++ p.path.flatMap (fun op => GG.drawTo op m), ∀ b, (ggStep b c).2 = [] := by
    intro c hc b
    simp only [List.mem_append, or_assoc] at hc
    rcases hc with h | h | h | h
    · exact c1.1 c h b
    · exact c2.1 c h b
    · exact c3.1 c h b
    · exact pen c h b
  have trail : (clip ++ fs ++ GG.strokeSetup p.style m o ++ p.path.flatMap (fun op => GG.drawTo op m)).foldl ggTrail ([], false) = (ggOutline m p.path, true) := by
    simp only [List.foldl_append, gg_still c1.2, gg_still c2.2, gg_still c3.2, tr]
  generalize clip ++ fs ++ GG.strokeSetup p.style m o ++ p.path.flatMap (fun op => GG.drawTo op m) = q at all trail
  have s1 := pictured_silent (trail := ggTrail) (outline := fun t _ => t.1) all
  unfold ggPicture
  rw [pictured_append, painted_append, (s1 b ([], false)).1, (s1 b ([], false)).2, List.foldl_append, trail]
  unfold GG.finish paintOf
  rcases p.style.fillerColor with _ | f <;> rcases p.style.linerColor with _ | l <;> simp [pictured, painted, ggStep, ggTrail, Painted.kind]

theorem gg_all_pictured {X : Type} (K : Painted (GGPattern F) F → X) {f : SvgPath F → GG.Drawn (List (GGCall F))} {g : SvgPath F → List X}
    {o : SvgPath F → List (Event F)} : ∀ (ps : List (SvgPath F)),
      (∀ p ∈ ps, ∀ cs, f p = .ok cs → ∀ b, ggPicture b [] cs = (painted ggStep b cs).map (fun x => (o p, x)) ∧ (painted ggStep b cs).map K = g p ∧
        cs.foldl ggTrail ([], false) = ([], false)) → ∀ cs, GG.drawAll f ps = .ok cs →
      ∀ b, (ggPicture b [] cs).map (fun x => (x.1, K x.2)) = ps.flatMap fun p => (g p).map fun x => (o p, x)
  | [], _, cs, h, b => by rw [GG.drawAll, GG.Drawn.ok.injEq] at h; subst h; rfl
  | p :: ps, hf, cs, h, b => by
    rw [GG.drawAll] at h
    split at h
    · rename_i c1 h1
      split at h
      · rename_i c2 h2
        rw [GG.Drawn.ok.injEq] at h
        subst h
        obtain ⟨k1, k2, k3⟩ := hf p List.mem_cons_self c1 h1 b
        have ih := gg_all_pictured K ps (fun q hq => hf q (List.mem_cons_of_mem _ hq)) c2 h2 (brushAfter ggStep b c1)
        unfold ggPicture at k1 ih ⊢
        rw [pictured_append, List.map_append, k1, k3, ih, List.flatMap_cons, ← k2, List.map_map, List.map_map]
        rfl
      · exact nomatch h
      · exact nomatch h
    · exact nomatch h
    · exact nomatch h

/-- C87 for gg, what is true when every path has a paint: what is painted is the outline of the path with a close before every move but the
first. -/
theorem C87_gg_closing {s : Svg F} {fuel : Nat} {opts : List (RenderOption F)} (h : ∀ p ∈ s.svgPaths, Begun p.path)
    (hp : ∀ p ∈ s.svgPaths, paintOf p.style ≠ []) {cs : List (GGCall F)} (hd : GG.draw s fuel opts = .ok cs) (b : Brush (GGPattern F) F) :
    covered (ggPicture b [] cs) = s.svgPaths.flatMap fun p => (paintOf p.style).map fun k =>
      (ggOutline (p.style.transform.mult (options s.viewBox opts).target) p.path, k) := by
  refine gg_all_pictured Painted.kind _ (fun p hq cs hc b => ?_) _ hd b
  obtain ⟨k1, k2, k3⟩ := gg_path_pictured hc (h p hq) b
  exact ⟨k1, k2, k3 (hp p hq)⟩

theorem area_append (a b : List (Event F)) : area (a ++ b) = area a ++ area b := List.filter_append ..

theorem area_gg (m : Matrix2D F) (path : Path) : area (ggOutline m path) = area (outlineUnder m path) := by
  have : ∀ path : Path, area (path.flatMap (withClose m)) = area (path.map (penOf m.tFixed)) := by
    intro path
    induction path with
    | nil => rfl
    | cons op path ih =>
      rw [List.flatMap_cons, area_append, ih, List.map_cons, ← List.singleton_append, area_append]
      cases op <;> rfl
  cases path with
  | nil => rfl
  | cons op path =>
    rw [ggOutline, outlineUnder, List.map_cons, ← List.singleton_append, area_append, this, ← area_append]
    rfl

theorem squeeze_gg (m : Matrix2D F) {path : Path} (h : ClosedBefore path) : squeeze (ggOutline m path) = squeeze (outlineUnder m path) := by
  have key : ∀ (path : Path) (op : Op) (b : Bool), ClosedBefore (op :: path) → (op = .close → b = true) →
      squeezeFrom b (path.flatMap (withClose m)) = squeezeFrom b (path.map (penOf m.tFixed)) := by
    intro path
    induction path with
    | nil => intros; rfl
    | cons o path ih =>
      intro op b hc hb
      have hc' : ClosedBefore (o :: path) := fun a x q c e => hc (op :: a) x q c (by rw [e]; rfl)
      rw [List.flatMap_cons, List.map_cons]
      cases o with
      | moveTo q =>
        have : b = true := hb (hc [] op q path rfl)
        subst this
        have ih := ih _ false hc' (fun h => (nomatch h))
        simp [withClose, squeezeFrom, penOf, ih]
      | close =>
        have ih := ih _ true hc' (fun _ => rfl)
        cases b <;> simp [withClose, squeezeFrom, penOf, ih]
      | _ =>
        have ih := ih _ false hc' (fun h => (nomatch h))
        cases b <;> simp [withClose, squeezeFrom, penOf, ih]
  cases path with
  | nil => rfl
  | cons op path =>
    unfold squeeze
    rw [ggOutline, outlineUnder, List.map_cons]
    cases op with
    | close => simp [penOf, squeezeFrom, key path _ true h (fun _ => rfl)]
    | _ => simp [penOf, squeezeFrom, key path _ false h (fun h => (nomatch h))]

/-- C87 for gg: every fill covers the area of the outline of its own path and every stroke follows that outline, and nothing else. Partial: when each
path has a fill or a stroke, and the stroked paths have no open subpath before another subpath. Full claim: all paths; false, see
`C87_gg_unpainted_false` and `C87_gg_open_false`. -/
theorem C87_gg_partial {s : Svg F} {fuel : Nat} {opts : List (RenderOption F)} (h : ∀ p ∈ s.svgPaths, Begun p.path)
    (hp : ∀ p ∈ s.svgPaths, paintOf p.style ≠ []) (hs : ∀ p ∈ s.svgPaths, p.style.linerColor.isSome → ClosedBefore p.path)
    {cs : List (GGCall F)} (hd : GG.draw s fuel opts = .ok cs) (b : Brush (GGPattern F) F) :
    (covered (ggPicture b [] cs)).map visible = s.svgPaths.flatMap fun p => (paintOf p.style).map fun k =>
      visible (outlineUnder (p.style.transform.mult (options s.viewBox opts).target) p.path, k) := by
  rw [C87_gg_closing h hp hd, List.map_flatMap, List.flatMap_def, List.flatMap_def]
  congr 1
  refine List.map_congr_left fun p hq => ?_
  rw [List.map_map]
  unfold paintOf
  rw [List.map_append, List.map_append]
  congr 1
  · split
    · simp [visible, area_gg]
    · rfl
  · split
    · rename_i hl
      simp [visible, squeeze_gg _ (hs p hq hl)]
    · rfl

end GoSvg

namespace GoSvg

open Spec

section Examples

attribute [local instance] asciiEnv
attribute [local instance] dummyLibm

/-- A document of 8 by 8, to be drawn at its own size. -/
def eight (body : List Token) : Option (Svg F64) := svgOf (elem "svg" [("viewBox", "0 0 8 8")] body)

def atSize : List (RenderOption F64) := [.target (num 0) (num 0) (num 8) (num 8)]

local instance exRx87 : RxEnv F64 := ⟨fun _ => (⟨0, 0⟩, ⟨0, 0⟩)⟩

/-- C87 is false for draw2d: of a path with two triangles only the second is filled; rasterx fills both. -/
theorem C87_draw2d_false : (eight (elem "path" [("d", "M0 0 L8 0 L8 8 Z M2 2 L4 2 L4 4 Z")])).map (fun s =>
      (covered (d2Picture {} [] (Draw2d.draw s atSize)), covered (rxPicture {} (([], []), ([], [])) (Rx.draw s atSize)))) =
    some ([([.move (num 2) (num 2), .line (num 4) (num 2), .line (num 4) (num 4), .close], .fill)],
      [([.move (num 0) (num 0), .line (num 8) (num 0), .line (num 8) (num 8), .close,
        .move (num 2) (num 2), .line (num 4) (num 2), .line (num 4) (num 4), .close], .fill)]) := by decide +kernel

/-- C87 is false for gg: a path without paints is filled with the paint of the next. -/
theorem C87_gg_unpainted_false : (eight (elem "path" [("d", "M0 0 L8 0 L8 8 Z"), ("fill", "none")] ++ elem "path" [("d", "M2 2 L4 2 L4 4 Z")])).map (fun s =>
      (s.svgPaths.map fun p => paintOf p.style, match GG.draw s 1 atSize with
        | .ok cs => (covered (ggPicture {} [] cs)).map visible
        | _ => [])) =
    some ([[], [.fill]], [([.move (num 0) (num 0), .line (num 8) (num 0), .line (num 8) (num 8),
        .move (num 2) (num 2), .line (num 4) (num 2), .line (num 4) (num 4)], .fill)]) := by decide +kernel

/-- C87 is false for gg: an open line with a right angle, followed by another line, is stroked as a triangle. -/
theorem C87_gg_open_false : (eight (elem "path" [("d", "M0 0 L8 0 L8 8 M2 2 L4 2"), ("fill", "none"), ("stroke", "red")])).map (fun s =>
      match GG.draw s 1 atSize with
        | .ok cs => (covered (ggPicture {} [] cs)).map visible
        | _ => []) =
    some [([.move (num 0) (num 0), .line (num 8) (num 0), .line (num 8) (num 8), .close, .move (num 2) (num 2), .line (num 4) (num 2)], .stroke)] := by
  decide +kernel

/-- A triangle and a line, each a single subpath, one of them with both paints, one under a transform. All paths have a paint. -/
def twoPaths : Option (Svg F64) := eight (elem "path" [("d", "M0 0 L8 0 L8 8 Z"), ("stroke", "red"), ("transform", "translate(1 0)")] ++
  elem "line" [("x2", "4"), ("fill", "none"), ("stroke", "red")])

example : twoPaths.map (fun s => s.svgPaths.map fun p => p.path) =
    some [[.moveTo ⟨0, 0⟩, .lineTo ⟨512, 0⟩, .lineTo ⟨512, 512⟩, .close], [.moveTo ⟨0, 0⟩, .lineTo ⟨256, 0⟩]] := by decide +kernel

example : twoPaths.map (fun s => s.svgPaths.map fun p => paintOf p.style) = some [[.fill, .stroke], [.stroke]] := by decide +kernel

/-- C87 at work on the triangle and the line. -/
theorem C87_example : twoPaths.map (fun s => (covered (d2Picture {} [] (Draw2d.draw s atSize)), match GG.draw s 1 atSize with
        | .ok cs => (covered (ggPicture {} [] cs)).map visible
        | _ => [])) =
    some ([([.move (num 1) (num 0), .line (num 9) (num 0), .line (num 9) (num 8), .close], .fill),
        ([.move (num 1) (num 0), .line (num 9) (num 0), .line (num 9) (num 8), .close], .stroke),
        ([.move (num 0) (num 0), .line (num 4) (num 0)], .stroke)],
      [([.move (num 1) (num 0), .line (num 9) (num 0), .line (num 9) (num 8)], .fill),
        ([.move (num 1) (num 0), .line (num 9) (num 0), .line (num 9) (num 8), .close], .stroke),
        ([.move (num 0) (num 0), .line (num 4) (num 0)], .stroke)]) := by decide +kernel

/-- The paths of the two meet the hypotheses of `C87_draw2d_partial` and `C87_gg_partial`. -/
example : ∀ path ∈ ([[.moveTo ⟨0, 0⟩, .lineTo ⟨512, 0⟩, .lineTo ⟨512, 512⟩, .close], [.moveTo ⟨0, 0⟩, .lineTo ⟨256, 0⟩]] : List Path),
    Single path ∧ Begun path ∧ ClosedBefore path := by
  intro path h
  have hs : Single path := by
    simp only [List.mem_cons, List.not_mem_nil, or_false] at h
    rcases h with rfl | rfl <;> exact ⟨_, _, rfl, by simp⟩
  refine ⟨hs, hs.imp fun a ⟨r, h, _⟩ => ⟨r, h⟩, ?_⟩
  obtain ⟨p, r, rfl, hr⟩ := hs
  intro a op q b e
  cases a with
  | nil =>
    rw [List.nil_append, List.cons.injEq] at e
    exact absurd rfl (hr (.moveTo q) (by rw [e.2]; exact List.mem_cons_self) q)
  | cons x a =>
    rw [List.cons_append, List.cons.injEq] at e
    exact absurd rfl (hr (.moveTo q) (by rw [e.2]; simp) q)

end Examples

end GoSvg
