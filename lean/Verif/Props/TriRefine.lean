import Verif.Lemmas.TriRefine
import Mathlib.Tactic.FieldSimp
import Mathlib.Algebra.Order.Ring.Rat
/-!
C51: uniform refinement of triangle meshes.
-/
namespace Verif.Props.TriRefine
open Verif Verif.TriRefine Verif.Spec

section
variable {K : Type} [Field K]

/-- C51: one refinement of a conforming mesh succeeds, the result is conforming again (in particular
every edge belongs to one triangle if it is a boundary edge and to two otherwise), and the numbers of
triangles, edges and points are as expected. -/
theorem c51_refine (m : Mesh K) (h : Conforming m) :
    ∃ m', refine m = .ok m' ∧ Conforming m' ∧ m'.tris.length = 4 * m.tris.length ∧
      m'.edges.length = 2 * m.edges.length + 3 * m.tris.length ∧
      m'.points.length = m.points.length + m.edges.length :=
  ⟨fine m, refine_ok h, fine_conforming h, fine_tris_length m, fine_edges_length m, fine_points_length m⟩

/-- C51: both halves of every edge are stored with the boundary descriptor of the edge, they meet in
its midpoint, and every boundary edge of the refined mesh is such a half of a boundary edge. -/
theorem c51_boundary (m : Mesh K) (h : Conforming m) :
    ∃ m', refine m = .ok m' ∧
      (∀ x ∈ m.edges, ∃ k p q, m.points[x.1.a]? = some p ∧ m.points[x.1.b]? = some q ∧
        m'.points[x.1.a]? = some p ∧ m'.points[x.1.b]? = some q ∧ m'.points[k]? = some (midpoint p q) ∧
        (⟨x.1.a, k⟩, x.2) ∈ m'.edges ∧ (⟨x.1.b, k⟩, x.2) ∈ m'.edges) ∧
      (∀ y ∈ m'.edges, y.2.bnd = true → ∃ x ∈ m.edges, x.2 = y.2 ∧ (y.1.a = x.1.a ∨ y.1.a = x.1.b) ∧
        ∃ p q, m.points[x.1.a]? = some p ∧ m.points[x.1.b]? = some q ∧
          m'.points[y.1.b]? = some (midpoint p q)) := by
  refine ⟨fine m, refine_ok h, ?_, ?_⟩
  · intro x hx
    have he : x.1 ∈ keys m := List.mem_map.2 ⟨x, hx, rfl⟩
    obtain ⟨p, q, hp, hq, hm⟩ := fine_point_mid h he
    have hl := h.edge_lt x hx
    refine ⟨mp (keys m) m.points.length x.1, p, q, hp, hq,
      (fine_point_old m (by omega)).trans hp, (fine_point_old m hl.2).trans hq, hm, ?_, ?_⟩
    · exact (mem_fine_edges m _).2 (.inl ((mem_halves_iff h _).2 ⟨x, hx, _, .inl rfl, rfl⟩))
    · exact (mem_fine_edges m _).2 (.inl ((mem_halves_iff h _).2 ⟨x, hx, _, .inr rfl, rfl⟩))
  · intro y hy hb
    rcases (mem_fine_edges m y).1 hy with hy | ⟨t, ht, hy⟩
    · obtain ⟨x, hx, v, hv, rfl⟩ := (mem_halves_iff h y).1 hy
      obtain ⟨p, q, hp, hq, hm⟩ := fine_point_mid h (List.mem_map.2 ⟨x, hx, rfl⟩ : x.1 ∈ keys m)
      exact ⟨x, hx, rfl, hv, p, q, hp, hq, hm⟩
    · rcases (mem_inner_iff t y).1 hy with rfl | rfl | rfl <;> simp [Bd.inner] at hb

/-- C51: any number of refinements of a conforming mesh succeeds and multiplies the number of
triangles by four each time. -/
theorem c51_levels (k : Nat) (m : Mesh K) (h : Conforming m) :
    ∃ m', refineN k m = .ok m' ∧ Conforming m' ∧ m'.tris.length = 4 ^ k * m.tris.length := by
  induction k generalizing m with
  | zero => exact ⟨m, rfl, h, by simp⟩
  | succ k ih =>
    obtain ⟨m', h1, h2, h3⟩ := ih (fine m) (fine_conforming h)
    refine ⟨m', ?_, h2, ?_⟩
    · rw [refineN, refine_ok h]; exact h1
    · rw [h3, fine_tris_length, Nat.pow_succ]; ring

/-- C51: the meshes the mesher starts from are conforming. -/
theorem c51_initial : Conforming (pattern1 : Mesh K) ∧ Conforming (pattern2 : Mesh K) :=
  ⟨pattern1_conforming, pattern2_conforming⟩

end

section
variable {K : Type} [Field K] [LinearOrder K] [IsStrictOrderedRing K]

/-- C51: every new triangle has a quarter of the area of an old one, every old one contributes four of
these, and the area of the mesh does not change. -/
theorem c51_area (m : Mesh K) (h : Conforming m) :
    ∃ m' : Mesh K, refine m = .ok m' ∧ totalArea m' = totalArea m ∧
      ∃ children : Tri → List Tri, m'.tris.Perm (m.tris.flatMap children) ∧
        ∀ t ∈ m.tris, (children t).length = 4 ∧
          ∀ k ∈ children t, area m'.points k = area m.points t / 4 :=
  ⟨fine m, refine_ok h, fine_totalArea h, kids (keys m) m.points.length, Sort.sortBy_perm _ _,
    fun _ ht => ⟨rfl, fun _ hk => kid_area h ht hk⟩⟩

/-- C51, from the mesher's first mesh: after `k` refinements there are `4^(k+1)` triangles, all of area
`1/4^(k+1)`, covering the area of the unit square. -/
theorem c51_unit_square (k : Nat) :
    ∃ m' : Mesh K, refineN k pattern1 = .ok m' ∧ Conforming m' ∧ m'.tris.length = 4 ^ (k + 1) ∧
      (∀ t ∈ m'.tris, area m'.points t = 1 / 4 ^ (k + 1)) ∧ totalArea m' = 1 := by
  have key : ∀ (k : Nat) (m : Mesh K) (a : K), Conforming m → (∀ t ∈ m.tris, area m.points t = a) →
      ∃ m', refineN k m = .ok m' ∧ Conforming m' ∧ m'.tris.length = 4 ^ k * m.tris.length ∧
        (∀ t ∈ m'.tris, area m'.points t = a / 4 ^ k) ∧ totalArea m' = totalArea m := by
    intro k
    induction k with
    | zero => intro m a h ha; exact ⟨m, rfl, h, by simp, by simpa using ha, rfl⟩
    | succ k ih =>
      intro m a h ha
      obtain ⟨m', h1, h2, h3, h4, h5⟩ := ih (fine m) (a / 4) (fine_conforming h) (by
        intro t ht
        obtain ⟨t0, ht0, hk⟩ := (mem_fine_tris m t).1 ht
        rw [kid_area h ht0 hk, ha t0 ht0])
      refine ⟨m', ?_, h2, ?_, ?_, ?_⟩
      · rw [refineN, refine_ok h]; exact h1
      · rw [h3, fine_tris_length, Nat.pow_succ]; ring
      · intro t ht; rw [h4 t ht, pow_succ]; field_simp
      · rw [h5, fine_totalArea h]
  have ha : ∀ t ∈ (pattern1 : Mesh K).tris, area (pattern1 : Mesh K).points t = 1 / 4 := by
    have hh : |(1 / 2 : K)| = 1 / 2 := abs_of_pos (by norm_num)
    have hn : |(-(1 / 2) : K)| = 1 / 2 := by rw [abs_neg, hh]
    intro t ht
    change t ∈ [(⟨0, 1, 4⟩ : Tri), ⟨0, 3, 4⟩, ⟨1, 2, 4⟩, ⟨2, 3, 4⟩] at ht
    simp only [List.mem_cons, List.not_mem_nil, or_false] at ht
    rcases ht with rfl | rfl | rfl | rfl
    · refine (area_some (p := (0, 0)) (q := (1, 0)) (r := (1 / 2, 1 / 2)) rfl rfl rfl).trans ?_
      rw [show cross ((0 : K), (0 : K)) (1, 0) (1 / 2, 1 / 2) = 1 / 2 by simp only [cross]; ring, hh]; norm_num
    · refine (area_some (p := (0, 0)) (q := (0, 1)) (r := (1 / 2, 1 / 2)) rfl rfl rfl).trans ?_
      rw [show cross ((0 : K), (0 : K)) (0, 1) (1 / 2, 1 / 2) = -(1 / 2) by simp only [cross]; ring, hn]; norm_num
    · refine (area_some (p := (1, 0)) (q := (1, 1)) (r := (1 / 2, 1 / 2)) rfl rfl rfl).trans ?_
      rw [show cross ((1 : K), (0 : K)) (1, 1) (1 / 2, 1 / 2) = 1 / 2 by simp only [cross]; ring, hh]; norm_num
    · refine (area_some (p := (1, 1)) (q := (0, 1)) (r := (1 / 2, 1 / 2)) rfl rfl rfl).trans ?_
      rw [show cross ((1 : K), (1 : K)) (0, 1) (1 / 2, 1 / 2) = 1 / 2 by simp only [cross]; ring, hh]; norm_num
  obtain ⟨m', h1, h2, h3, h4, h5⟩ := key k pattern1 (1 / 4) pattern1_conforming ha
  refine ⟨m', h1, h2, ?_, ?_, ?_⟩
  · rw [h3, Nat.pow_succ]; rfl
  · intro t ht; rw [h4 t ht, pow_succ]; field_simp
  · rw [h5, totalArea, List.map_congr_left (g := fun _ => (1 / 4 : K)) ha]
    change (1 / 4 : K) + (1 / 4 + (1 / 4 + (1 / 4 + 0))) = 1
    norm_num

/-- C51: the vertices of a triangle are stored in increasing order of their numbers, so the orientation
of a stored triangle is not that of its parent: after one refinement of a counterclockwise triangle, two
children are stored clockwise. -/
theorem c51_orientation (p q r : K × K) :
    cross p (midpoint p q) (midpoint p r) = cross p q r / 4 ∧
    cross q (midpoint p q) (midpoint q r) = -(cross p q r / 4) ∧
    cross r (midpoint p r) (midpoint q r) = cross p q r / 4 ∧
    cross (midpoint p q) (midpoint p r) (midpoint q r) = -(cross p q r / 4) := by
  refine ⟨?_, ?_, ?_, ?_⟩ <;> simp only [cross, midpoint] <;> ring

end

example : ∃ m' : Mesh ℚ, refine pattern2 = .ok m' ∧
    m'.tris = [⟨0, 4, 5⟩, ⟨0, 5, 6⟩, ⟨1, 4, 7⟩, ⟨2, 5, 7⟩, ⟨2, 5, 8⟩, ⟨3, 6, 8⟩, ⟨4, 5, 7⟩, ⟨5, 6, 8⟩] := by
  exact ⟨fine pattern2, refine_ok pattern2_conforming, by decide +kernel⟩

/-- The refinement throws when a side of a triangle is not stored. -/
example : TriRefine.refine (⟨[(0, 0), (1, 0), (0, 1)], [(⟨0, 1⟩, Bd.inner), (⟨0, 2⟩, Bd.inner)],
    [⟨0, 1, 2⟩]⟩ : Mesh ℚ) =
    .throws "Edge not found. This is a bug." := by
  decide +kernel

end Verif.Props.TriRefine
