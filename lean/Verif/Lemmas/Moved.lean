import Verif.Lemmas.Real
import Verif.Spec.Moved

/-! Moved outlines. -/

namespace GoSvg

open Spec

theorem moved_zero (o : GOp ℝ) : o.moved 0 0 = o := by
  cases o <;> simp [GOp.moved]

theorem moved_moved (a b a' b' : ℝ) (o : GOp ℝ) : (o.moved a b).moved a' b' = o.moved (a + a') (b + b') := by
  cases o <;> simp [GOp.moved, add_assoc]

theorem moved_back (a b : ℝ) (G : List (GOp ℝ)) : (G.map (GOp.moved (-a) (-b))).map (GOp.moved a b) = G := by
  rw [List.map_map]
  conv_rhs => rw [← List.map_id G]
  apply List.map_congr_left
  intro o _
  rw [Function.comp_apply, moved_moved, neg_add_cancel, neg_add_cancel, moved_zero]; rfl

/-- Storing with an offset is moving and storing. -/
theorem store_moved (a b : ℝ) (G : List (GOp ℝ)) : (G.map (GOp.moved a b)).map (GOp.store toFix 0 0) = G.map (GOp.store toFix a b) := by
  rw [List.map_map]
  apply List.map_congr_left
  intro o _
  cases o <;> simp [GOp.moved, GOp.store, real_add]

/-- A cubic moved by (a, b). -/
noncomputable def Spec.Cubic.moved (a b : ℝ) (c : Cubic) : Cubic :=
  ⟨(c.p0.1 + a, c.p0.2 + b), (c.p1.1 + a, c.p1.2 + b), (c.p2.1 + a, c.p2.2 + b), (c.p3.1 + a, c.p3.2 + b)⟩

theorem moved_at (a b : ℝ) (c : Cubic) (t : ℝ) : (c.moved a b).at t = ((c.at t).1 + a, (c.at t).2 + b) := by
  unfold Cubic.at Cubic.moved
  refine Prod.ext ?_ ?_ <;> dsimp only <;> ring

theorem moved_point (a b cx cy ra rb rot η : ℝ) : (Ellipse.mk (cx + a) (cy + b) ra rb rot).point η =
    (((Ellipse.mk cx cy ra rb rot).point η).1 + a, ((Ellipse.mk cx cy ra rb rot).point η).2 + b) := by
  unfold Ellipse.point
  refine Prod.ext ?_ ?_ <;> dsimp only <;> ring

theorem moved_level (a b cx cy ra rb rot : ℝ) (p : ℝ × ℝ) : (Ellipse.mk (cx + a) (cy + b) ra rb rot).level (p.1 + a, p.2 + b) =
    (Ellipse.mk cx cy ra rb rot).level p := by
  unfold Ellipse.level Ellipse.along
  dsimp only
  rw [show p.1 + a - (cx + a) = p.1 - cx by ring, show p.2 + b - (cy + b) = p.2 - cy by ring]

theorem moved_cubics (a b : ℝ) (cs : List Cubic) : (cs.map (Cubic.moved a b)).map (fun c => GOp.cubicTo c.p1 c.p2 c.p3) =
    (cs.map fun c => GOp.cubicTo c.p1 c.p2 c.p3).map (GOp.moved a b) := by
  rw [List.map_map, List.map_map]; rfl

theorem follows_moved (a b : ℝ) {cx cy ra rb rot η δ : ℝ} {n : Nat} {cs : List Cubic} (h : Follows ⟨cx, cy, ra, rb, rot⟩ η δ n cs) :
    Follows ⟨cx + a, cy + b, ra, rb, rot⟩ η δ n (cs.map (Cubic.moved a b)) := by
  refine ⟨⟨by rw [List.length_map]; exact h.length, h.few, ?_, ?_, ?_, ?_⟩, h.step⟩
  · intro j hj
    have hj' : j < cs.length := by simpa using hj
    rw [List.getElem_map, moved_point, ← h.start j hj']; rfl
  · intro j hj
    have hj' : j < cs.length := by simpa using hj
    rw [List.getElem_map, moved_point, ← h.stop j hj']; rfl
  · obtain ⟨α, h1, h2⟩ := h.tangent
    refine ⟨α, h1, fun j hj => ?_⟩
    have hj' : j < cs.length := by simpa using hj
    obtain ⟨k1, k2⟩ := h2 j hj'
    rw [List.getElem_map]
    constructor
    · show ((cs[j].p1.1 + a, cs[j].p1.2 + b) : ℝ × ℝ) = (cs[j].p0.1 + a, cs[j].p0.2 + b) + α • Ellipse.tangent ⟨cx, cy, ra, rb, rot⟩ _
      rw [k1]
      refine Prod.ext ?_ ?_ <;> simp <;> ring
    · show ((cs[j].p2.1 + a, cs[j].p2.2 + b) : ℝ × ℝ) = (cs[j].p3.1 + a, cs[j].p3.2 + b) - α • Ellipse.tangent ⟨cx, cy, ra, rb, rot⟩ _
      rw [k2]
      refine Prod.ext ?_ ?_ <;> simp <;> ring
  · intro c hc t h0 h1
    obtain ⟨c', hc', rfl⟩ := List.mem_map.1 hc
    rw [moved_at, moved_level]
    exact h.near c' hc' t h0 h1

theorem rounds_moved (a b : ℝ) {cx cy r η : ℝ} {cs : List Cubic} (h : Rounds cx cy r η cs) :
    Rounds (cx + a) (cy + b) r η (cs.map (Cubic.moved a b)) := by
  refine ⟨by rw [List.length_map]; exact h.length, ?_, ?_, ?_, ?_⟩
  · intro j hj
    have hj' : j < cs.length := by simpa using hj
    rw [List.getElem_map, moved_point, ← h.start j hj']; rfl
  · intro j hj
    have hj' : j < cs.length := by simpa using hj
    rw [List.getElem_map, moved_point, ← h.stop j hj']; rfl
  · obtain ⟨α, h1, h2⟩ := h.tangent
    refine ⟨α, h1, fun j hj => ?_⟩
    have hj' : j < cs.length := by simpa using hj
    obtain ⟨k1, k2⟩ := h2 j hj'
    rw [List.getElem_map]
    constructor
    · show ((cs[j].p1.1 + a, cs[j].p1.2 + b) : ℝ × ℝ) = (cs[j].p0.1 + a, cs[j].p0.2 + b) + α • Ellipse.tangent ⟨cx, cy, r, r, 0⟩ _
      rw [k1]
      refine Prod.ext ?_ ?_ <;> simp <;> ring
    · show ((cs[j].p2.1 + a, cs[j].p2.2 + b) : ℝ × ℝ) = (cs[j].p3.1 + a, cs[j].p3.2 + b) - α • Ellipse.tangent ⟨cx, cy, r, r, 0⟩ _
      rw [k2]
      refine Prod.ext ?_ ?_ <;> simp <;> ring
  · intro c hc t h0 h1
    obtain ⟨c', hc', rfl⟩ := List.mem_map.1 hc
    rw [moved_at]
    dsimp only
    rw [show (c'.at t).1 + a - (cx + a) = (c'.at t).1 - cx by ring, show (c'.at t).2 + b - (cy + b) = (c'.at t).2 - cy by ring]
    exact h.near c' hc' t h0 h1

theorem roundedRect_moved (a b : ℝ) {x y w h r : ℝ} {G : List (GOp ℝ)} (hG : RoundedRect x y w h r G) :
    RoundedRect (x + a) (y + b) w h r (G.map (GOp.moved a b)) := by
  obtain ⟨c1, c2, c3, c4, h1, h2, h3, h4, rfl⟩ := hG
  refine ⟨c1.map (Cubic.moved a b), c2.map (Cubic.moved a b), c3.map (Cubic.moved a b), c4.map (Cubic.moved a b), ?_, ?_, ?_, ?_, ?_⟩
  · have := rounds_moved a b h1
    rwa [show x + w - r + a = x + a + w - r by ring, show y + r + b = y + b + r by ring] at this
  · have := rounds_moved a b h2
    rwa [show x + w - r + a = x + a + w - r by ring, show y + h - r + b = y + b + h - r by ring] at this
  · have := rounds_moved a b h3
    rwa [show x + r + a = x + a + r by ring, show y + h - r + b = y + b + h - r by ring] at this
  · have := rounds_moved a b h4
    rwa [show x + r + a = x + a + r by ring, show y + r + b = y + b + r by ring] at this
  · have e1 : x + a + r = x + r + a := by ring
    have e2 : x + w + a - r = x + w - r + a := by ring
    have e3 : x + a + w = x + w + a := by ring
    have e4 : y + b + r = y + r + b := by ring
    have e5 : y + h + b - r = y + h - r + b := by ring
    have e6 : y + b + h = y + h + b := by ring
    simp only [List.map_append, moved_cubics, List.map_cons, List.map_nil, GOp.moved, e1, e2, e3, e4, e5, e6]

end GoSvg
