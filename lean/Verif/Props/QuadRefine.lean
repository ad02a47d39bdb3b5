import Verif.Lemmas.QuadGeom
import Verif.Lemmas.TriRules
import Verif.Lemmas.CartMeasure
/-!
C140: uniform refinement of Cartesian meshes. C141: measures and quadratures on them.
-/
namespace Verif.Props.QuadRefine
open Verif.QuadRefine Verif.Spec.QuadMesh
open Verif.TriRefine (Edge Bd midpoint mp)

section
variable {K : Type} [Field K]

/-- C140: one refinement of a conforming mesh succeeds, the result is conforming again and the numbers of cells, edges
and points are as expected. -/
theorem c140_refine (m : Mesh K) (h : Conforming m) :
    ∃ m', refine m = .ok m' ∧ Conforming m' ∧ m'.quads.length = 4 * m.quads.length ∧
      m'.edges.length = 2 * m.edges.length + 4 * m.quads.length ∧
      m'.points.length = m.points.length + m.edges.length + m.quads.length :=
  ⟨fine m, refine_ok h, fine_conforming h, fine_quads_length m, fine_edges_length m, fine_points_length m⟩

/-- C140: both halves of an edge are stored with the boundary descriptor of the edge and meet in its midpoint, and every
boundary edge of the refined mesh is such a half. -/
theorem c140_boundary (m : Mesh K) (h : Conforming m) :
    ∃ m', refine m = .ok m' ∧
      (∀ x ∈ m.edges, ∃ k p q, m.points[x.1.a]? = some p ∧ m.points[x.1.b]? = some q ∧
        m'.points[x.1.a]? = some p ∧ m'.points[x.1.b]? = some q ∧ m'.points[k]? = some (midpoint p q) ∧
        (⟨x.1.a, k⟩, x.2) ∈ m'.edges ∧ (⟨x.1.b, k⟩, x.2) ∈ m'.edges) ∧
      (∀ y ∈ m'.edges, y.2.bnd = true → ∃ x ∈ m.edges, x.2 = y.2 ∧ (y.1.a = x.1.a ∨ y.1.a = x.1.b) ∧
        ∃ p q, m.points[x.1.a]? = some p ∧ m.points[x.1.b]? = some q ∧
          m'.points[y.1.b]? = some (midpoint p q)) := by
  have hpq : ∀ x ∈ m.edges, ∃ p q, m.points[x.1.a]? = some p ∧ m.points[x.1.b]? = some q ∧
      (fine m).points[mp (keys m) m.points.length x.1]? = some (midpoint p q) := by
    intro x hx
    have hl := h.edge_lt x hx
    have ha := List.getElem?_eq_getElem (l := m.points) (i := x.1.a) (by omega)
    have hb := List.getElem?_eq_getElem (l := m.points) (i := x.1.b) (by omega)
    exact ⟨_, _, ha, hb, fine_point_mid h (List.mem_map.2 ⟨x, hx, rfl⟩) ha hb⟩
  refine ⟨fine m, refine_ok h, ?_, ?_⟩
  · intro x hx
    obtain ⟨p, q, hp, hq, hm⟩ := hpq x hx
    have hl := h.edge_lt x hx
    refine ⟨mp (keys m) m.points.length x.1, p, q, hp, hq,
      (fine_point_old m (by omega)).trans hp, (fine_point_old m hl.2).trans hq, hm, ?_, ?_⟩
    · exact (mem_fine_edges m _).2 (.inl ((mem_halves_iff h _).2 ⟨x, hx, _, .inl rfl, rfl⟩))
    · exact (mem_fine_edges m _).2 (.inl ((mem_halves_iff h _).2 ⟨x, hx, _, .inr rfl, rfl⟩))
  · intro y hy hb
    rcases (mem_fine_edges m y).1 hy with hy | ⟨t, ht, hy⟩
    · obtain ⟨x, hx, v, hv, rfl⟩ := (mem_halves_iff h y).1 hy
      obtain ⟨p, q, hp, hq, hm⟩ := hpq x hx
      exact ⟨x, hx, rfl, hv, p, q, hp, hq, hm⟩
    · rcases (mem_inner_iff t y).1 hy with rfl | rfl | rfl | rfl <;> simp [Bd.inner] at hb

end

section
variable {K : Type} [Field K] [LinearOrder K] [IsStrictOrderedRing K]

/-- C140: after `k` refinements of the mesher's first mesh there are `4^(k+1)` cells; the mesh is conforming; every
cell is a square with sides of length `1/2^(k+1)` along the axes, its corners counterclockwise being the stored points
0, 1, 3, 2; the cells partition the unit square; an edge is marked with side `i` of the unit square exactly if it lies
on it. -/
theorem c140_unit_square (k : Nat) :
    ∃ m' : Mesh K, refineN k initial = .ok m' ∧ Conforming m' ∧ m'.quads.length = 4 ^ (k + 1) ∧
      (∀ t ∈ m'.quads, ∃ p u, IsSquare m'.points t p u ∧ Axis u (1 / 2 ^ (k + 1))) ∧ Partition m' ∧
      (∀ x ∈ m'.edges, ∀ p q, m'.points[x.1.a]? = some p → m'.points[x.1.b]? = some q → ∀ i,
        (OnSide i p ∧ OnSide i q) ↔ (x.2.bnd = true ∧ x.2.id = i)) := by
  obtain ⟨m', h1, h2, h3⟩ := level_geo k (initial : Mesh K) _ initial_geo
  have e : (1 / 2 : K) / 2 ^ k = 1 / 2 ^ (k + 1) := by rw [pow_succ]; field_simp
  rw [e] at h2
  exact ⟨m', h1, h2.conf, by rw [h3, Nat.pow_succ]; rfl, h2.square, h2.part, h2.bnd⟩

end

/-- The first mesh is conforming and its first refinement has the expected cells. -/
example : ∃ m' : Mesh ℚ, refine initial = .ok m' ∧ m'.quads = [⟨0, 9, 10, 21⟩, ⟨1, 11, 12, 22⟩, ⟨1, 12, 9, 21⟩,
    ⟨2, 13, 11, 22⟩, ⟨3, 10, 14, 21⟩, ⟨3, 14, 15, 23⟩, ⟨4, 12, 16, 22⟩, ⟨4, 14, 12, 21⟩, ⟨4, 16, 17, 24⟩,
    ⟨4, 17, 14, 23⟩, ⟨5, 16, 13, 22⟩, ⟨5, 18, 16, 24⟩, ⟨6, 15, 19, 23⟩, ⟨7, 17, 20, 24⟩, ⟨7, 19, 17, 23⟩,
    ⟨8, 20, 18, 24⟩] :=
  ⟨fine initial, refine_ok initial_conforming, by decide +kernel⟩

/-- The refinement throws when a side of a cell is not stored. -/
example : refine (⟨[(0, 0), (1, 0), (0, 1), (1, 1)], [(⟨0, 1⟩, Bd.inner), (⟨0, 2⟩, Bd.inner), (⟨1, 3⟩, Bd.inner)],
    [⟨0, 1, 2, 3⟩]⟩ : Mesh ℚ) = .throws "Edge not found. This is a bug." := by
  decide +kernel

/-! ### C141 -/

open CartMeasure Verif.Spec Verif.Quad Verif.PlaneIntegral

/-- C141 in the plane: on the mesh of level `k` the measure of every cell is `1/4^(k+1)`, the measures add up to one,
and the measure of every edge is `1/2^(k+1)`. -/
theorem c141_measure_partial (k : Nat) :
    ∃ m' : Mesh ℝ, refineN k initial = .ok m' ∧ (∀ t ∈ m'.quads, measureCell m' t = .ok (1 / 4 ^ (k + 1))) ∧
      m'.quads.length * (1 / 4 ^ (k + 1) : ℝ) = 1 ∧
      (∀ x ∈ m'.edges, measureFace m' x.1 = .ok (1 / 2 ^ (k + 1))) := by
  obtain ⟨m', h1, h2, h3, h4, h5, h6⟩ := c140_unit_square (K := ℝ) k
  have hh : (0 : ℝ) < 1 / 2 ^ (k + 1) := by positivity
  refine ⟨m', h1, ?_, ?_, ?_⟩
  · intro t ht
    obtain ⟨p, u, ⟨a, b, c, d⟩, hu⟩ := h4 t ht
    rw [measureCell, points_ok (.cons a (.cons b (.cons c (.cons d .nil)))), Outcome.bind_ok]
    simp only [cell2]
    rw [dist2_axis hh hu (by simp [at_]) (by simp [at_]), dist2_axis hh (axis_turn hu) (by simp [at_]) (by simp [at_])]
    congr 1
    rw [show (4 : ℝ) = 2 * 2 by norm_num, mul_pow]
    field_simp
  · rw [h3]
    push_cast
    field_simp
  · intro x hx
    have hs := h2.shared x hx
    have hpos : 0 < owners m'.quads x.1 := by rw [hs]; split_ifs <;> omega
    obtain ⟨t, ht, hx⟩ := List.countP_pos_iff.1 hpos
    have hx : x.1 ∈ QuadMesh.sides t := by simpa using hx
    obtain ⟨p, u, ⟨a, b, c, d⟩, hu⟩ := h4 t ht
    simp only [QuadMesh.sides, List.mem_cons, List.not_mem_nil, or_false] at hx
    rcases hx with e | e | e | e <;> rw [e, measureFace]
    · rw [points_ok (.cons a (.cons b .nil)), Outcome.bind_ok]
      simp only [face2]
      rw [dist2_axis hh hu (by simp [at_]) (by simp [at_])]
    · rw [points_ok (.cons a (.cons c .nil)), Outcome.bind_ok]
      simp only [face2]
      rw [dist2_axis hh (axis_turn hu) (by simp [at_]) (by simp [at_])]
    · rw [points_ok (.cons b (.cons d .nil)), Outcome.bind_ok]
      simp only [face2]
      rw [dist2_axis hh (axis_turn hu) (by simp [at_]) (by simp [at_])]
    · rw [points_ok (.cons c (.cons d .nil)), Outcome.bind_ok]
      simp only [face2]
      rw [dist2_axis hh hu (by simp [at_]) (by simp [at_])]

/-- C141, quadratures: on every cell of the mesh of level `k` and for every degree up to 39, the quadrature integrates
polynomials of that degree up to rounding of the table. Polynomials are given around the centre of the cell. -/
theorem c141_quadrature {tab : List (List (ℝ × ℝ))} (hg : StoredAll (gaussRules.map literal) tab) (k : Nat) {d : Nat}
    (hd : d ≤ 39) (f : Poly2) (hf : f.DegLE d) :
    ∃ m' : Mesh ℝ, refineN k initial = .ok m' ∧ ∀ t ∈ m'.quads, ∃ p u qps, IsSquare m'.points t p u ∧
      integrateCell tab m' t d = .ok qps ∧
      |quadSum qps (fun q => f.eval (q.x - (at_ p u (1 / 2) (1 / 2)).1) (q.y - (at_ p u (1 / 2) (1 / 2)).2)) -
        polyInt f (toP2 (at_ p u (1 / 2) (1 / 2)))
          [toP2 (at_ p u 0 0), toP2 (at_ p u 1 0), toP2 (at_ p u 1 1), toP2 (at_ p u 0 1)]| ≤
        1 / 10 ^ 13 * (f.size (1 / 2 ^ (k + 2)) * (1 / 2 * (1 / 4 ^ (k + 1)))) := by
  obtain ⟨m', h1, h2, h3, h4, h5, h6⟩ := c140_unit_square (K := ℝ) k
  refine ⟨m', h1, fun t ht => ?_⟩
  obtain ⟨p, u, ⟨a, b, c, e⟩, hu⟩ := h4 t ht
  set h : ℝ := 1 / 2 ^ (k + 1) with hhd
  have hh : 0 < h := by positivity
  have hl : tab.length = 21 := by rw [← stored_length hg]; rfl
  have hn : d / 2 < 20 := by omega
  have hk : ¬ d / 2 ≥ tab.length - 1 := by omega
  have h2' : (1 / 2 ^ (k + 2) : ℝ) = h / 2 := by rw [hhd, pow_succ _ (k + 1)]; field_simp
  have h4' : (1 / 4 ^ (k + 1) : ℝ) = h ^ 2 := by
    rw [hhd, show (4 : ℝ) = 2 * 2 by norm_num, mul_pow]; field_simp
  have hsq := axis_sq hu
  have hc : Corners (toP2 (at_ p u 0 0)) (toP2 (at_ p u 1 0)) (toP2 (at_ p u 1 1)) (toP2 (at_ p u 0 1)) := by
    refine ⟨?_, ?_, ?_, ?_⟩ <;> simp only [turn, toP2, at_] <;> nlinarith [mul_pos hh hh]
  have half : ∀ x : ℝ, |x / 2| = |x| / 2 := fun x => by rw [abs_div, abs_two]
  have habs : |u.1| + |u.2| = h := by
    rcases hu with rfl | rfl | rfl | rfl <;> simp [abs_of_pos hh]
  have hbx : bilSum ((toP2 (at_ p u 0 0)).x - (toP2 (at_ p u (1 / 2) (1 / 2))).x)
      ((toP2 (at_ p u 1 0)).x - (toP2 (at_ p u (1 / 2) (1 / 2))).x)
      ((toP2 (at_ p u 1 1)).x - (toP2 (at_ p u (1 / 2) (1 / 2))).x)
      ((toP2 (at_ p u 0 1)).x - (toP2 (at_ p u (1 / 2) (1 / 2))).x) ≤ 1 / 2 ^ (k + 2) := by
    rw [h2', ← habs]
    refine le_of_eq ?_
    unfold bilSum
    simp only [toP2, at_]
    have e1 : ∀ x y z w x' y' z' w' : ℝ, x = x' → y = y' → z = z' → w = w' →
      |x| + |y| + |z| + |w| = |x'| + |y'| + |z'| + |w'| := by
      intro x y z w x' y' z' w' a b c d
      rw [a, b, c, d]
    rw [e1 _ _ _ _ 0 (u.1 / 2) (-u.2 / 2) 0 (by ring) (by ring) (by ring) (by ring), half, half, abs_neg, abs_zero]
    ring
  have hby : bilSum ((toP2 (at_ p u 0 0)).y - (toP2 (at_ p u (1 / 2) (1 / 2))).y)
      ((toP2 (at_ p u 1 0)).y - (toP2 (at_ p u (1 / 2) (1 / 2))).y)
      ((toP2 (at_ p u 1 1)).y - (toP2 (at_ p u (1 / 2) (1 / 2))).y)
      ((toP2 (at_ p u 0 1)).y - (toP2 (at_ p u (1 / 2) (1 / 2))).y) ≤ 1 / 2 ^ (k + 2) := by
    rw [h2', ← habs]
    refine le_of_eq ?_
    unfold bilSum
    simp only [toP2, at_]
    have e1 : ∀ x y z w x' y' z' w' : ℝ, x = x' → y = y' → z = z' → w = w' →
      |x| + |y| + |z| + |w| = |x'| + |y'| + |z'| + |w'| := by
      intro x y z w x' y' z' w' a b c d
      rw [a, b, c, d]
    rw [e1 _ _ _ _ 0 (u.2 / 2) (u.1 / 2) 0 (by ring) (by ring) (by ring) (by ring), half, half, abs_zero]
    ring
  have hsh : shoelace [toP2 (at_ p u 0 0), toP2 (at_ p u 1 0), toP2 (at_ p u 1 1), toP2 (at_ p u 0 1)] / 4 =
      1 / 2 * (1 / 4 ^ (k + 1)) := by
    rw [h4', show h ^ 2 = u.1 * u.1 + u.2 * u.2 by rw [hsq]; ring]
    simp only [shoelace, Verif.Spec.sides, toP2, at_, List.map_cons, List.map_nil, List.sum_cons, List.sum_nil,
      List.zip_cons_cons]
    simp
    ring
  have hex : integrateCell tab m' t d = .ok ((square (tab.getD (d / 2) [])).map fun q =>
      (bilMap (toP2 (at_ p u 0 0)) (toP2 (at_ p u 1 0)) (toP2 (at_ p u 1 1)) (toP2 (at_ p u 0 1)) q.1,
        q.2 * |Quad.jac (toP2 (at_ p u 0 0)) (toP2 (at_ p u 1 0)) (toP2 (at_ p u 1 1)) (toP2 (at_ p u 0 1))
          q.1.1 q.1.2|)) := by
    rw [integrateCell, points_ok (.cons a (.cons b (.cons c (.cons e .nil)))), Outcome.bind_ok]
    simp only [tensor2, if_neg hk]
  refine ⟨p, u, _, ⟨a, b, c, e⟩, hex, ?_⟩
  have := tensor_error (r := tab.getD (d / 2) []) (n := d) (fun k hk => gauss_bound hg hn (by omega))
    (stored_nodes (stored_getD hg _)) (z := toP2 (at_ p u (1 / 2) (1 / 2))) hc f
    (rep_para hc (by simp only [toP2, at_]; ring) (by simp only [toP2, at_]; ring) hbx hby f hf)
  rw [hsh] at this
  exact this

example : StoredAll (gaussRules.map literal) (gaussRules.map literal) :=
  literal_storedAll _ (by decide +kernel)

/-- C141 in space is violated: the measure of a 3D cell is never computed, its eight points fail the assertion. -/
theorem c141_hex_violated (pts : List (Fin 3 → ℝ)) (h : pts.length = 8) :
    cell3 pts = .ub "assert(pts.size() == 4)" := by
  rw [cell3, if_pos (by omega)]

/-- C141: whatever the points, the measure of a 3D cell is undefined. -/
theorem c141_hex_never (pts : List (Fin 3 → ℝ)) : (cell3 pts).IsUB := by
  unfold cell3
  split_ifs with h
  · trivial
  · have h : pts.length = 4 := by omega
    have : pts[4]? = none := by simp [h]
    rw [this]
    split <;> trivial

/-- C141: the measures of the faces of a box numbered by bits are the areas of its faces. -/
theorem c141_hexface (o l : Fin 3 → ℝ) (h : ∀ i, 0 < l i) :
    (hexFaces (boxCorner o l)).map face3 =
      [.ok (l 1 * l 2), .ok (l 1 * l 2), .ok (l 0 * l 1), .ok (l 0 * l 1), .ok (l 2 * l 0), .ok (l 2 * l 0)] := by
  have h0 := (h 0).le
  have h1 := (h 1).le
  have h2 := (h 2).le
  simp [hexFaces, face3, boxCorner, dist3, Real.sqrt_sq, h0, h1, h2]

end Verif.Props.QuadRefine
