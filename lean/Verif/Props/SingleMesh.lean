import Verif.Lemmas.SingleMesh
/-!
C30: which single-element meshes can look the faces of their cell up.
-/
namespace Verif.Props.SingleMesh
open Verif Verif.SingleMesh Verif.Spec

/-- C30, segment: both end nodes are found. -/
theorem c30_segment :
    ∃ fs, segment.cellFaces = .ok fs ∧ fs = [[0], [1]] ∧ AllFound segment.faces fs := by
  refine ⟨_, rfl, rfl, ?_⟩
  intro f hf
  simp only [List.mem_cons, List.not_mem_nil, or_false] at hf
  rcases hf with rfl | rfl
  · exact ⟨0, by decide +kernel, rfl⟩
  · exact ⟨1, by decide +kernel, rfl⟩

/-- C30, triangle: the three edges are found. -/
theorem c30_triangle :
    ∃ fs, triangle.cellFaces = .ok fs ∧ fs = [[0, 1], [1, 2], [0, 2]] ∧ AllFound triangle.faces fs := by
  refine ⟨[[0, 1], [1, 2], [0, 2]], by decide +kernel, rfl, ?_⟩
  intro f hf
  simp only [List.mem_cons, List.not_mem_nil, or_false] at hf
  rcases hf with rfl | rfl | rfl
  · exact ⟨0, by decide +kernel, by decide +kernel⟩
  · exact ⟨2, by decide +kernel, by decide +kernel⟩
  · exact ⟨1, by decide +kernel, by decide +kernel⟩

/-- C30, polygon: with any number `n ≥ 3` of faces the enumerator returns `n` faces, they are the `n`
sides (each joining consecutive corners, none twice), and each is found. With fewer the mesh is left
untouched. -/
theorem c30_polygon (n : Nat) :
    (n < 3 → polygon n = none) ∧
    (3 ≤ n → ∃ m fs, polygon n = some m ∧ m.cellFaces = .ok fs ∧ fs.length = n ∧ fs.Nodup ∧
      (∀ f, f ∈ fs ↔ f = [0, n - 1] ∨ ∃ i, i + 1 < n ∧ f = [i, i + 1]) ∧ AllFound m.faces fs) := by
  refine ⟨fun h => by simp [polygon, h], fun hn => ?_⟩
  have hnd := polygonEdges_nodup n hn
  have hss := sortFaces_strict _ hnd
  have hperm := Sort.sortBy_perm (fun a b : List Nat => decide (a < b)) ((List.range n).map (polygonEdge n))
  change (sortFaces _).Perm _ at hperm
  generalize hS : sortFaces ((List.range n).map (polygonEdge n)) = S at hss hperm
  have hlen : S.length = n := by rw [hperm.length_eq]; simp
  obtain ⟨fs, h1, h2⟩ := genericFaces_ok S (List.range n) (by
    intro i hi; rw [hlen]; exact List.mem_range.1 hi)
  have hfs : fs = S := by
    apply List.map_injective_iff.2 (Option.some_injective _)
    rw [h2]
    apply List.ext_getElem?
    intro i
    by_cases hi : i < n
    · have : i < S.length := by omega
      simp [hi, this]
    · have : ¬ i < S.length := by omega
      simp [hi, this]
  refine ⟨_, fs, by unfold polygon; rw [if_neg (by omega)], ?_, ?_, ?_, ?_, ?_⟩
  · simp only [hS]; exact h1
  · rw [hfs, hlen]
  · rw [hfs]; exact hperm.nodup_iff.2 hnd
  · intro f
    rw [hfs, hperm.mem_iff, List.mem_map]
    constructor
    · rintro ⟨i, hi, rfl⟩
      rw [polygonEdge_eq n i hn (List.mem_range.1 hi)]
      have := List.mem_range.1 hi
      split_ifs with h
      · exact .inl rfl
      · exact .inr ⟨i, by omega, rfl⟩
    · rintro (rfl | ⟨i, hi, rfl⟩)
      · refine ⟨n - 1, List.mem_range.2 (by omega), ?_⟩
        rw [polygonEdge_eq n _ hn (by omega), if_pos (by omega)]
      · refine ⟨i, List.mem_range.2 (by omega), ?_⟩
        rw [polygonEdge_eq n _ hn (by omega), if_neg (by omega)]
  · intro f hf
    simp only [hS]
    exact found_of_mem S hss f (hfs ▸ hf)

example : ∃ m, polygon 5 = some m ∧ m.faces = [[0, 1], [0, 4], [1, 2], [2, 3], [3, 4]] := by
  refine ⟨_, rfl, by decide +kernel⟩

/-- C30, tetrahedron: the faces are stored unsorted and the binary search misses `{0,2,3}`, although it
is stored; the other three faces are found. -/
theorem c30_tetra_violation :
    tetra.cellFaces = .ok [[1, 2, 3], [0, 2, 3], [0, 1, 3], [0, 1, 2]] ∧
    [0, 2, 3] ∈ tetra.faces ∧ (Lookup.lookup tetra.faces [0, 2, 3]).Throws ∧
    AllFound tetra.faces [[1, 2, 3], [0, 1, 3], [0, 1, 2]] := by
  refine ⟨by decide +kernel, by decide +kernel, by decide +kernel, ?_⟩
  intro f hf
  simp only [List.mem_cons, List.not_mem_nil, or_false] at hf
  rcases hf with rfl | rfl | rfl
  · exact ⟨2, by decide +kernel, by decide +kernel⟩
  · exact ⟨1, by decide +kernel, by decide +kernel⟩
  · exact ⟨0, by decide +kernel, by decide +kernel⟩

/-- C30, Cartesian quadrilateral: the sides `{0,2}` and `{1,3}` of the cell are not stored (the diagonals
`{0,3}` and `{1,2}` are); the other two sides are found. -/
theorem c30_quad_violation :
    quad.cellFaces = .ok [[0, 1], [0, 2], [1, 3], [2, 3]] ∧
    (Lookup.lookup quad.faces [0, 2]).Throws ∧ (Lookup.lookup quad.faces [1, 3]).Throws ∧
    [0, 3] ∈ quad.faces ∧ [1, 2] ∈ quad.faces ∧ AllFound quad.faces [[0, 1], [2, 3]] := by
  refine ⟨by decide +kernel, by decide +kernel, by decide +kernel, by decide +kernel, by decide +kernel, ?_⟩
  intro f hf
  simp only [List.mem_cons, List.not_mem_nil, or_false] at hf
  rcases hf with rfl | rfl
  · exact ⟨0, by decide +kernel, by decide +kernel⟩
  · exact ⟨3, by decide +kernel, by decide +kernel⟩

/-- C30, Cartesian hexahedron: the front and back faces are enumerated in another order than stored and
are not found; the other four are. -/
theorem c30_hexa_violation :
    hexa.cellFaces = .ok [[0, 2, 6, 4], [1, 3, 7, 5], [0, 1, 3, 2], [4, 5, 7, 6], [0, 4, 5, 1], [2, 6, 7, 3]] ∧
    (Lookup.lookup hexa.faces [0, 4, 5, 1]).Throws ∧ (Lookup.lookup hexa.faces [2, 6, 7, 3]).Throws ∧
    AllFound hexa.faces [[0, 2, 6, 4], [1, 3, 7, 5], [0, 1, 3, 2], [4, 5, 7, 6]] := by
  refine ⟨by decide +kernel, by decide +kernel, by decide +kernel, ?_⟩
  have hS : hexa.faces = [[0, 1, 3, 2], [0, 1, 5, 4], [0, 2, 6, 4], [1, 3, 7, 5], [2, 3, 7, 6], [4, 5, 7, 6]] := by
    decide +kernel
  rw [hS]
  intro f hf
  simp only [List.mem_cons, List.not_mem_nil, or_false] at hf
  rcases hf with rfl | rfl | rfl | rfl
  · exact ⟨2, by decide +kernel, by decide +kernel⟩
  · exact ⟨3, by decide +kernel, by decide +kernel⟩
  · exact ⟨0, by decide +kernel, by decide +kernel⟩
  · exact ⟨5, by decide +kernel, by decide +kernel⟩

end Verif.Props.SingleMesh
