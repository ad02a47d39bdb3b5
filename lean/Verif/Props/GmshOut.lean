import Verif.Lemmas.GmshMesh
/-!
C164: meshes written for GMSH.
-/
noncomputable section
namespace Verif.Props.GmshOut
open Verif Verif.Spec Verif.GmshOut

/-- The mesh with one cell, made of all the points. -/
def oneCell (dim : Nat) (pts : List (P3 ℝ)) : Mesh := ⟨dim, pts, [], [List.range pts.length]⟩

/-- A mesh is converted exactly if every edge has two points and every cell is made of points of the mesh, two of them on
a line and at least three in the plane and four in space. -/
theorem c164_defined (m : Mesh) : (∃ g, convertMesh m = .ok g) ↔
    (∀ e ∈ m.edges, e.length = 2) ∧ ∀ c ∈ m.cells, (∀ i ∈ c, i < m.pts.length) ∧
      ((m.dim = 1 ∧ c.length = 2) ∨ (m.dim = 2 ∧ 3 ≤ c.length) ∨ (m.dim = 3 ∧ 4 ≤ c.length)) :=
  ⟨fun ⟨_, h⟩ => convert_valid h, fun h => let ⟨g, h, _⟩ := convert_ok h; ⟨g, h⟩⟩

example : (∃ g, convertMesh (oneCell 3 [⟨0, 0, 0⟩, ⟨1, 0, 0⟩, ⟨0, 1, 0⟩, ⟨0, 0, 1⟩]) = .ok g) ∧
    ¬ ∃ g, convertMesh (oneCell 2 [⟨0, 0, 0⟩, ⟨1, 0, 0⟩]) = .ok g := by
  refine ⟨(c164_defined _).2 ⟨by simp [oneCell], by simp [oneCell]⟩, fun h => ?_⟩
  have := ((c164_defined _).1 h).2 _ (List.mem_singleton.2 rfl)
  simp [oneCell] at this

/-- Nodes have the coordinates of the points and are numbered from one, elements are numbered from one, and they begin with
a vertex for every point and an edge for every edge. The other elements follow cell by cell. -/
theorem c164_points {m : Mesh} {g : Gmesh} (h : convertMesh m = .ok g) :
    g.nodes.map GNode.coor = m.pts ∧ g.nodes.map GNode.index = List.range' 1 m.pts.length ∧
    g.elems.map Element.num = List.range' 1 g.elems.length ∧
    ∃ f : List Nat → List (Kind × List Nat), (g.elems.map fun e => (e.kind, e.nodes)) =
      (List.range' 1 m.pts.length).map (fun n => (Kind.vertex, [n])) ++
      m.edges.map (fun e => (Kind.edge, e.map (· + 1))) ++ m.cells.flatMap f := by
  obtain ⟨h1, h2, h3⟩ := convert_spec h
  refine ⟨?_, ?_, h2, _, h3⟩
  · rw [h1]
    apply List.ext_getElem <;> simp [numberNodes]
  · rw [h1]
    apply List.ext_getElem
    · simp [numberNodes]
    · intro i h1 h2; simp [numberNodes, Nat.add_comm]

example : ∃ g, convertMesh ⟨1, [⟨0, 0, 0⟩, ⟨1, 0, 0⟩], [[0, 1]], []⟩ = .ok g ∧
    (g.elems.map fun e => (e.kind, e.nodes)) = [(.vertex, [1]), (.vertex, [2]), (.edge, [1, 2])] := ⟨_, rfl, rfl⟩

/-- Convex cells of the plane, with their points listed in any order: a triangle or a quadrangle is written with its nodes
counter-clockwise along the boundary, and the triangles written for more points tile the cell if all triangles between
its points that are not flat are larger than the tolerance of `aligned`. -/
theorem c164_plane_partial {m : Mesh} {g : Gmesh} (hd : m.dim = 2) (h : convertMesh m = .ok g) :
    ∃ f : List Nat → List (Kind × List Nat),
      (g.elems.map fun e => (e.kind, e.nodes)).drop (m.pts.length + m.edges.length) = m.cells.flatMap f ∧
      ∀ c ∈ m.cells, ∀ q, (c.map fun i => flat2 (nodeAt m.pts (i + 1))).Perm q → ConvexRing q →
        (c.length = 3 → ∃ ns, f c = [(.triangle, ns)] ∧ ns.Perm (c.map (· + 1)) ∧ Along m.pts ns q) ∧
        (c.length = 4 → ∃ ns, f c = [(.quadrangle, ns)] ∧ ns.Perm (c.map (· + 1)) ∧ Along m.pts ns q) ∧
        (5 ≤ c.length → Resolved (1 / 10 ^ 8) q → ∃ ts : List (Nat × Nat × Nat),
          f c = ts.map (fun t => (.triangle, [t.1, t.2.1, t.2.2])) ∧
          (∀ t ∈ ts, t.1 ∈ c.map (· + 1) ∧ t.2.1 ∈ c.map (· + 1) ∧ t.2.2 ∈ c.map (· + 1)) ∧
          Tiles (ts.map (triangleAt m.pts)) q) := by
  obtain ⟨-, -, h3⟩ := convert_spec h
  refine ⟨fun c => cellShapes 2 (cellNodes m.pts c), ?_, fun c hc q hp hq => ⟨fun hl => ?_, fun hl => ?_, fun hl hr => ?_⟩⟩
  · have hl : (head m).length = m.pts.length + m.edges.length := by simp [head]
    show (shapes g).drop _ = _
    rw [h3, ← hl, List.drop_left, hd]
  · obtain ⟨p, a, -⟩ := cell_along hp hq
    exact ⟨_, by simp [cellShapes, cellNodes, hl], p, a⟩
  · obtain ⟨p, a, -⟩ := cell_along hp hq
    exact ⟨_, by simp [cellShapes, cellNodes, hl], p, a⟩
  · refine ⟨(((fan (pick (cellNodes m.pts c) (sortNodes2D (cellNodes m.pts c)))).filter fun t =>
      !aligned t.1 t.2.1 t.2.2)).map fun t => (t.1.index, t.2.1.index, t.2.2.index), ?_, ?_, ?_⟩
    · have e3 : (cellNodes m.pts c).length ≠ 3 := by simp [cellNodes]; omega
      have e4 : (cellNodes m.pts c).length ≠ 4 := by simp [cellNodes]; omega
      simp only [cellShapes, e3, e4, if_false, if_true, List.map_map]
      rfl
    · intro t ht
      obtain ⟨u, hu, rfl⟩ := List.mem_map.1 ht
      obtain ⟨m1, m2, m3⟩ := fan_sub (List.mem_filter.1 hu).1
      have hs := (sorted_spec (cellNodes m.pts c)).1
      rw [← index_cell m.pts c]
      exact ⟨List.mem_map_of_mem (hs.mem_iff.1 m1), List.mem_map_of_mem (hs.mem_iff.1 m2),
        List.mem_map_of_mem (hs.mem_iff.1 m3)⟩
    · rw [List.map_map]
      exact cell_tiles hp hq hr

/-- A square with points listed row by row, as in Cartesian meshes. -/
example : ((List.range 4).map fun i => flat2 (nodeAt [⟨0, 0, 0⟩, ⟨1, 0, 0⟩, ⟨0, 1, 0⟩, ⟨1, 1, 0⟩] (i + 1))).Perm
      [⟨0, 0⟩, ⟨1, 0⟩, ⟨1, 1⟩, ⟨0, 1⟩] ∧ ConvexRing [⟨0, 0⟩, ⟨1, 0⟩, ⟨1, 1⟩, ⟨0, 1⟩] := by
  refine ⟨?_, ?_, ?_, ?_⟩
  · have : ((List.range 4).map fun i => flat2 (nodeAt [⟨0, 0, 0⟩, ⟨1, 0, 0⟩, ⟨0, 1, 0⟩, ⟨1, 1, 0⟩] (i + 1))) =
        [⟨0, 0⟩, ⟨1, 0⟩, ⟨0, 1⟩, ⟨1, 1⟩] := rfl
    rw [this]
    exact ((List.Perm.swap _ _ _).cons _).cons _
  · intro a b c h
    have hm : ∀ (x y z w : P2 ℝ), List.Sublist [a, b, c] [x, y, z, w] →
        (a = x ∧ b = y ∧ c = z) ∨ (a = x ∧ b = y ∧ c = w) ∨ (a = x ∧ b = z ∧ c = w) ∨ (a = y ∧ b = z ∧ c = w) := by
      intro x y z w h
      simp only [List.sublist_cons_iff, List.sublist_nil, List.cons.injEq, reduceCtorEq] at h
      aesop
    rcases hm _ _ _ _ h with ⟨rfl, rfl, rfl⟩ | ⟨rfl, rfl, rfl⟩ | ⟨rfl, rfl, rfl⟩ | ⟨rfl, rfl, rfl⟩ <;>
      norm_num [turn]
  · simp
  · norm_num [shoelace, sides]

/-- The triangle written for a cell with three points that are not aligned is counter-clockwise. -/
theorem c164_triangle {m : Mesh} {g : Gmesh} (hd : m.dim = 2) (h : convertMesh m = .ok g) :
    ∀ i j k, [i, j, k] ∈ m.cells →
      turn (flat2 (nodeAt m.pts (i + 1))) (flat2 (nodeAt m.pts (j + 1))) (flat2 (nodeAt m.pts (k + 1))) ≠ 0 →
      ∃ e ∈ g.elems, e.kind = .triangle ∧ e.nodes.Perm [i + 1, j + 1, k + 1] ∧
        ∃ a b c, (e.nodes.map fun n => flat2 (nodeAt m.pts n)) = [a, b, c] ∧ 0 < turn a b c := by
  intro i j k hc ht
  obtain ⟨-, -, h3⟩ := convert_spec h
  have hs := (sorted_spec (cellNodes m.pts [i, j, k])).1
  obtain ⟨x, y, z, e, ht'⟩ := sorted_triangle (l := cellNodes m.pts [i, j, k]) (by rw [cell_pt]; rfl) ht
  have hm : ((Kind.triangle, (pick (cellNodes m.pts [i, j, k]) (sortNodes2D (cellNodes m.pts [i, j, k]))).map
      GNode.index)) ∈ shapes g := by
    rw [h3]
    refine List.mem_append_right _ (List.mem_flatMap.2 ⟨_, hc, ?_⟩)
    rw [hd]
    simp [cellShapes, cellNodes]
  obtain ⟨el, h1, h2⟩ := List.mem_map.1 hm
  have h4 : el.kind = .triangle := congrArg Prod.fst h2
  have h5 : el.nodes = _ := congrArg Prod.snd h2
  refine ⟨el, h1, h4, ?_, x, y, z, ?_, ht'⟩
  · rw [h5]
    have := hs.map GNode.index
    rwa [index_cell] at this
  · rw [h5]
    dsimp only
    rw [map_pt (c := [i, j, k]) fun n hn => hs.mem_iff.1 hn]
    exact e

example : turn (flat2 (nodeAt [⟨0, 0, 0⟩, ⟨0, 1, 0⟩, ⟨1, 0, 0⟩] 1)) (flat2 (nodeAt [⟨0, 0, 0⟩, ⟨0, 1, 0⟩, ⟨1, 0, 0⟩] 2))
    (flat2 (nodeAt [⟨0, 0, 0⟩, ⟨0, 1, 0⟩, ⟨1, 0, 0⟩] 3)) ≠ 0 := by norm_num [turn, flat2, nodeAt]

/-- The tetrahedron written for a cell with four points has a positive volume unless it is flat. -/
theorem c164_tetrahedron {m : Mesh} {g : Gmesh} (hd : m.dim = 3) (h : convertMesh m = .ok g) :
    ∀ i j k l, [i, j, k, l] ∈ m.cells →
      vol6 (nodeAt m.pts (i + 1)) (nodeAt m.pts (j + 1)) (nodeAt m.pts (k + 1)) (nodeAt m.pts (l + 1)) ≠ 0 →
      ∃ e ∈ g.elems, e.kind = .tetrahedron ∧ e.nodes.Perm [i + 1, j + 1, k + 1, l + 1] ∧
        ∃ a b c d, e.nodes.map (nodeAt m.pts) = [a, b, c, d] ∧ 0 < vol6 a b c d := by
  intro i j k l hc hv
  obtain ⟨-, -, h3⟩ := convert_spec h
  obtain ⟨y, z, w, e, p, hv'⟩ := sorted_tetrahedron ⟨i + 1, m.pts.getD i ⟨0, 0, 0⟩⟩ ⟨j + 1, m.pts.getD j ⟨0, 0, 0⟩⟩
    ⟨k + 1, m.pts.getD k ⟨0, 0, 0⟩⟩ ⟨l + 1, m.pts.getD l ⟨0, 0, 0⟩⟩ (by simpa [nodeAt] using hv)
  have hm : ((Kind.tetrahedron, (pick (cellNodes m.pts [i, j, k, l]) (sortNodes3D (cellNodes m.pts [i, j, k, l]))).map
      GNode.index)) ∈ shapes g := by
    rw [h3]
    refine List.mem_append_right _ (List.mem_flatMap.2 ⟨_, hc, ?_⟩)
    rw [hd]
    simp [cellShapes, cellNodes]
  obtain ⟨el, h1, h2⟩ := List.mem_map.1 hm
  have h4 : el.kind = .tetrahedron := congrArg Prod.fst h2
  have h5 : el.nodes = (pick (cellNodes m.pts [i, j, k, l]) (sortNodes3D (cellNodes m.pts [i, j, k, l]))).map
      GNode.index := congrArg Prod.snd h2
  have e' : pick (cellNodes m.pts [i, j, k, l]) (sortNodes3D (cellNodes m.pts [i, j, k, l])) = _ := e
  rw [e'] at h5
  have hat : ∀ n ∈ [⟨i + 1, m.pts.getD i ⟨0, 0, 0⟩⟩, y, z, w], nodeAt m.pts n.index = n.coor := fun n hn =>
    (mem_cellNodes (c := [i, j, k, l]) (p.mem_iff.1 hn)).symm
  refine ⟨el, h1, h4, ?_, _, y.coor, z.coor, w.coor, ?_, hv'⟩
  · rw [h5]; exact p.map GNode.index
  · rw [h5, List.map_map]
    exact List.map_congr_left hat

example : vol6 (nodeAt [⟨0, 0, 0⟩, ⟨0, 1, 0⟩, ⟨1, 0, 0⟩, ⟨0, 0, 1⟩] 1) (nodeAt [⟨0, 0, 0⟩, ⟨0, 1, 0⟩, ⟨1, 0, 0⟩, ⟨0, 0, 1⟩] 2)
    (nodeAt [⟨0, 0, 0⟩, ⟨0, 1, 0⟩, ⟨1, 0, 0⟩, ⟨0, 0, 1⟩] 3) (nodeAt [⟨0, 0, 0⟩, ⟨0, 1, 0⟩, ⟨1, 0, 0⟩, ⟨0, 0, 1⟩] 4) ≠ 0 := by
  norm_num [vol6, nodeAt]

/-- The hexahedron written for a cell whose corners are listed with the first index running fastest has its nodes in the
order of GMSH. -/
theorem c164_hexahedron {m : Mesh} {g : Gmesh} (hd : m.dim = 3) (h : convertMesh m = .ok g)
    (f : Bool → Bool → Bool → Nat) (hc : gridOrder f ∈ m.cells) :
    ∃ e ∈ g.elems, e.kind = .hexahedron ∧ e.nodes = hexOrder fun i j k => f i j k + 1 := by
  obtain ⟨-, -, h3⟩ := convert_spec h
  have hm : (Kind.hexahedron, hexOrder fun i j k => f i j k + 1) ∈ shapes g := by
    rw [h3]
    refine List.mem_append_right _ (List.mem_flatMap.2 ⟨_, hc, ?_⟩)
    rw [hd]
    simp [cellShapes, cellNodes, gridOrder, hexOrder, sortNodes3D, pick]
  obtain ⟨el, h1, h2⟩ := List.mem_map.1 hm
  exact ⟨el, h1, congrArg Prod.fst h2, congrArg Prod.snd h2⟩

example : gridOrder (fun i j k => i.toNat + 2 * j.toNat + 4 * k.toNat) = List.range 8 := rfl

/-- Meshes for post-processing: nodes and edges as above, and for every cell one triangle, counter-clockwise, or one
tetrahedron, of positive volume, unless it is flat. -/
theorem c164_post {m : Mesh} (he : ∀ e ∈ m.edges, e.length = 2)
    (hc : ∀ c ∈ m.cells, (∀ i ∈ c, i < m.pts.length) ∧ ((m.dim = 2 ∧ c.length = 3) ∨ (m.dim = 3 ∧ c.length = 4)))
    (hd : m.dim = 2 ∨ m.dim = 3) :
    ∃ g, convertPost m = .ok g ∧ g.nodes.map GNode.coor = m.pts ∧
      g.elems.map Element.num = List.range' 1 g.elems.length ∧
      ∃ f : List Nat → List Nat, (g.elems.map fun e => (e.kind, e.nodes)) =
        (List.range' 1 m.pts.length).map (fun n => (Kind.vertex, [n])) ++
        m.edges.map (fun e => (Kind.edge, e.map (· + 1))) ++
        m.cells.map (fun c => (if m.dim = 2 then Kind.triangle else Kind.tetrahedron, f c)) ∧
      ∀ c ∈ m.cells, (f c).Perm (c.map (· + 1)) ∧
        (∀ i j k, c = [i, j, k] →
          turn (flat2 (nodeAt m.pts (i + 1))) (flat2 (nodeAt m.pts (j + 1))) (flat2 (nodeAt m.pts (k + 1))) ≠ 0 →
          ∃ x y z, ((f c).map fun n => flat2 (nodeAt m.pts n)) = [x, y, z] ∧ 0 < turn x y z) ∧
        (∀ i j k l, c = [i, j, k, l] →
          vol6 (nodeAt m.pts (i + 1)) (nodeAt m.pts (j + 1)) (nodeAt m.pts (k + 1)) (nodeAt m.pts (l + 1)) ≠ 0 →
          ∃ x y z w, (f c).map (nodeAt m.pts) = [x, y, z, w] ∧ 0 < vol6 x y z w) := by
  obtain ⟨g, h1, h2, h3, h4⟩ := convertPost_ok he hd fun c h => ⟨fun h0 => by
    have := (hc c h).2; rw [h0] at this; simp at this, (hc c h).1⟩
  refine ⟨g, h1, by rw [h2]; apply List.ext_getElem <;> simp [numberNodes], h3,
    fun c => (if m.dim = 2 then sortNodes2D (postNodes m.pts c) else sortNodes3D (postNodes m.pts c)).map
      fun i => c.getD i 0 + 1, ?_, fun c h => ?_⟩
  · show shapes g = _
    rw [h4]
    have : ∀ cs : List (List Nat), (∀ c ∈ cs, (m.dim = 2 ∧ c.length = 3) ∨ (m.dim = 3 ∧ c.length = 4)) →
        cs.flatMap (postShapes m.dim m.pts) = cs.map (fun c => (if m.dim = 2 then Kind.triangle else Kind.tetrahedron,
          (if m.dim = 2 then sortNodes2D (postNodes m.pts c) else sortNodes3D (postNodes m.pts c)).map
            fun i => c.getD i 0 + 1)) := by
      intro cs
      induction cs with
      | nil => intro _; rfl
      | cons c cs ih =>
        intro h
        rw [List.flatMap_cons, List.map_cons, ih fun x hx => h x (List.mem_cons_of_mem _ hx)]
        rcases h c (by simp) with ⟨h1, h2⟩ | ⟨h1, h2⟩ <;> simp [postShapes, h1, h2]
    rw [this m.cells fun c h => (hc c h).2]
    rfl
  · rcases (hc c h).2 with ⟨hd2, hl⟩ | ⟨hd3, hl⟩
    · simp only [hd2, if_true]
      obtain ⟨i, j, k, rfl⟩ : ∃ i j k, c = [i, j, k] := by
        match c, hl with
        | [i, j, k], _ => exact ⟨i, j, k, rfl⟩
      have hlt : ∀ i' ∈ sortNodes2D (postNodes m.pts [i, j, k]), i' < [i, j, k].length := fun i' h => by
        simpa [postNodes_length] using sort2_lt h
      have hperm : (sortNodes2D (postNodes m.pts [i, j, k])).Perm (List.range 3) :=
        (selSort_spec _ _ _ (by simp)).1
      refine ⟨?_, ?_, fun _ _ _ _ h0 => by simp at h0⟩
      · have := hperm.map fun n => [i, j, k].getD n 0 + 1
        exact this
      · intro i' j' k' h0 ht
        cases h0
        obtain ⟨x, y, z, e, ht'⟩ := sorted_triangle (l := postNodes m.pts [i, j, k]) (by rw [post_pt]; rfl) ht
        refine ⟨x, y, z, ?_, ht'⟩
        have := congrArg (List.map flat2) (post_sorted m.pts [i, j, k] hlt)
        rw [List.map_map] at this
        refine Eq.trans this ?_
        rw [List.map_map]
        exact e
    · have hn2 : ¬ m.dim = 2 := by omega
      simp only [hn2, if_false]
      obtain ⟨i, j, k, l, rfl⟩ : ∃ i j k l, c = [i, j, k, l] := by
        match c, hl with
        | [i, j, k, l], _ => exact ⟨i, j, k, l, rfl⟩
      have hcase : sortNodes3D (postNodes m.pts [i, j, k, l]) = [0, 1, 2, 3] ∨
          sortNodes3D (postNodes m.pts [i, j, k, l]) = [0, 3, 2, 1] := by
        simp only [postNodes, List.zipIdx_cons, List.zipIdx_nil, List.map_cons, List.map_nil, sortNodes3D]
        split
        · exact Or.inl rfl
        · exact Or.inr rfl
      refine ⟨?_, fun _ _ _ h0 => by simp at h0, ?_⟩
      · rcases hcase with h0 | h0 <;> rw [h0]
        · exact List.Perm.refl _
        · exact (List.reverse_perm [j + 1, k + 1, l + 1]).cons (i + 1)
      · intro i' j' k' l' h0 hv
        cases h0
        obtain ⟨y, z, w, e, -, hv'⟩ := sorted_tetrahedron ⟨1, m.pts.getD i ⟨0, 0, 0⟩⟩ ⟨2, m.pts.getD j ⟨0, 0, 0⟩⟩
          ⟨3, m.pts.getD k ⟨0, 0, 0⟩⟩ ⟨4, m.pts.getD l ⟨0, 0, 0⟩⟩ (by simpa [nodeAt] using hv)
        refine ⟨_, _, _, _, ?_, hv'⟩
        have hlt : ∀ n ∈ sortNodes3D (postNodes m.pts [i, j, k, l]), n < [i, j, k, l].length := by
          rcases hcase with h0 | h0 <;> rw [h0] <;> simp
        rw [post_sorted m.pts [i, j, k, l] hlt]
        exact congrArg (List.map GNode.coor) e

example : ∃ g, convertPost ⟨2, [⟨0, 0, 0⟩, ⟨0, 1, 0⟩, ⟨1, 0, 0⟩], [], [[0, 1, 2]]⟩ = .ok g :=
  let ⟨g, h, _⟩ := c164_post (m := ⟨2, [⟨0, 0, 0⟩, ⟨0, 1, 0⟩, ⟨1, 0, 0⟩], [], [[0, 1, 2]]⟩) (by simp) (by simp) (Or.inl rfl)
  ⟨g, h⟩

/-- The tolerance of `aligned` is an absolute one: a cell with five or more points and small triangles between them is
missing from the mesh. -/
theorem c164_small_missing {m : Mesh} {g : Gmesh} (hd : m.dim = 2) (h : convertMesh m = .ok g)
    (hc : ∀ c ∈ m.cells, 5 ≤ c.length ∧ ∀ i ∈ c, ∀ j ∈ c, ∀ k ∈ c,
      turn (flat2 (nodeAt m.pts (i + 1))) (flat2 (nodeAt m.pts (j + 1))) (flat2 (nodeAt m.pts (k + 1))) < 1 / 10 ^ 8) :
    g.elems.length = m.pts.length + m.edges.length := by
  obtain ⟨-, -, h3⟩ := convert_spec h
  have h0 : m.cells.flatMap (fun c => cellShapes m.dim (cellNodes m.pts c)) = [] := by
    rw [List.flatMap_eq_nil_iff]
    intro c hcm
    obtain ⟨hl, ht⟩ := hc c hcm
    have e3 : (cellNodes m.pts c).length ≠ 3 := by simp [cellNodes]; omega
    have e4 : (cellNodes m.pts c).length ≠ 4 := by simp [cellNodes]; omega
    have e1 : ¬ 2 = 1 := by decide
    rw [hd]
    simp only [cellShapes, e1, e3, e4, if_false, if_true, List.map_eq_nil_iff, List.filter_eq_nil_iff]
    intro t hts
    obtain ⟨m1, m2, m3⟩ := fan_sub hts
    have hs := (sorted_spec (cellNodes m.pts c)).1
    obtain ⟨i, hi, e1⟩ := List.mem_map.1 (hs.mem_iff.1 m1)
    obtain ⟨j, hj, e2⟩ := List.mem_map.1 (hs.mem_iff.1 m2)
    obtain ⟨k, hk, e3⟩ := List.mem_map.1 (hs.mem_iff.1 m3)
    have := ht i hi j hj k hk
    rw [aligned, cross_turn, ← e1, ← e2, ← e3]
    have h' : turn (pt ⟨i + 1, m.pts.getD i ⟨0, 0, 0⟩⟩) (pt ⟨j + 1, m.pts.getD j ⟨0, 0, 0⟩⟩)
      (pt ⟨k + 1, m.pts.getD k ⟨0, 0, 0⟩⟩) < 1 / 10 ^ 8 := by simpa [nodeAt, flat2, pt] using this
    rw [decide_eq_true h']
    simp
  rw [h0, List.append_nil] at h3
  have := congrArg List.length h3
  simpa [shapes, head] using this

/-- The pentagon of the next theorem, with a side of `1 / 50000`. -/
def pentagon : List (P3 ℝ) :=
  [⟨0, 0, 0⟩, ⟨2 / 10 ^ 5, 0, 0⟩, ⟨3 / 10 ^ 5, 2 / 10 ^ 5, 0⟩, ⟨1 / 10 ^ 5, 3 / 10 ^ 5, 0⟩, ⟨-1 / 10 ^ 5, 2 / 10 ^ 5, 0⟩]

/-- A mesh of one convex pentagon of which nothing but the points is written. -/
theorem c164_pentagon_missing : (0 : ℝ) < shoelace (pentagon.map flat2) ∧
    ∃ g, convertMesh (oneCell 2 pentagon) = .ok g ∧ ∀ e ∈ g.elems, e.kind = .vertex := by
  refine ⟨by norm_num [shoelace, sides, pentagon, flat2], ?_⟩
  obtain ⟨g, h⟩ := (c164_defined (oneCell 2 pentagon)).2 ⟨by simp [oneCell], by simp [oneCell, pentagon]⟩
  refine ⟨g, h, ?_⟩
  have hl := c164_small_missing rfl h (by
    have h5 : List.range pentagon.length = [0, 1, 2, 3, 4] := rfl
    simp only [oneCell, List.mem_singleton, forall_eq, h5]
    refine ⟨by simp, ?_⟩
    simp only [List.forall_mem_cons, List.not_mem_nil, false_imp_iff, implies_true, and_true]
    norm_num [turn, flat2, nodeAt, pentagon])
  obtain ⟨-, -, -, f, hf⟩ := c164_points h
  intro e he
  have hlen : (oneCell 2 pentagon).cells.flatMap f = [] := by
    have := congrArg List.length hf
    simp only [List.length_map, List.length_append, List.length_range'] at this
    exact List.length_eq_zero_iff.1 (by omega)
  rw [hlen, List.append_nil] at hf
  have hm : (e.kind, e.nodes) ∈ g.elems.map fun e => (e.kind, e.nodes) := List.mem_map_of_mem he
  rw [hf] at hm
  simp only [oneCell, List.map_nil, List.append_nil, List.mem_map] at hm
  obtain ⟨n, -, hn⟩ := hm
  exact (congrArg Prod.fst hn).symm

/-- Cells of space that have neither four nor eight points are missing from the mesh, without an error. -/
theorem c164_polyhedra_missing {m : Mesh} (hd : m.dim = 3) (he : ∀ e ∈ m.edges, e.length = 2)
    (hc : ∀ c ∈ m.cells, (∀ i ∈ c, i < m.pts.length) ∧ 4 < c.length ∧ c.length ≠ 8) :
    ∃ g, convertMesh m = .ok g ∧ g.elems.length = m.pts.length + m.edges.length := by
  obtain ⟨g, h⟩ := (c164_defined m).2 ⟨he, fun c h => ⟨(hc c h).1, Or.inr (Or.inr ⟨hd, (hc c h).2.1.le⟩)⟩⟩
  refine ⟨g, h, ?_⟩
  obtain ⟨-, -, h3⟩ := convert_spec h
  have h0 : m.cells.flatMap (fun c => cellShapes m.dim (cellNodes m.pts c)) = [] := by
    rw [List.flatMap_eq_nil_iff]
    intro c hcm
    obtain ⟨-, hl, h8⟩ := hc c hcm
    have e4 : (cellNodes m.pts c).length ≠ 4 := by simp [cellNodes]; omega
    have e8 : (cellNodes m.pts c).length ≠ 8 := by simp [cellNodes]; omega
    rw [hd]
    simp [cellShapes, e4, e8]
  rw [h0, List.append_nil] at h3
  have := congrArg List.length h3
  simpa [shapes, head] using this

/-- A prism. -/
example : ∃ g, convertMesh (oneCell 3 [⟨0, 0, 0⟩, ⟨1, 0, 0⟩, ⟨0, 1, 0⟩, ⟨0, 0, 1⟩, ⟨1, 0, 1⟩, ⟨0, 1, 1⟩]) = .ok g ∧
    g.elems.length = 6 :=
  c164_polyhedra_missing (m := oneCell 3 [⟨0, 0, 0⟩, ⟨1, 0, 0⟩, ⟨0, 1, 0⟩, ⟨0, 0, 1⟩, ⟨1, 0, 1⟩, ⟨0, 1, 1⟩]) rfl
    (by simp [oneCell]) (by simp [oneCell])

/-- The unit cube with its corners in the order of GMSH. -/
def cube : List (P3 ℝ) :=
  [⟨0, 0, 0⟩, ⟨1, 0, 0⟩, ⟨1, 1, 0⟩, ⟨0, 1, 0⟩, ⟨0, 0, 1⟩, ⟨1, 0, 1⟩, ⟨1, 1, 1⟩, ⟨0, 1, 1⟩]

/-- A cell with eight points is written with the same permutation of them whatever their positions: a cube whose corners
are already in the order of GMSH is written with the third and fourth nodes exchanged, so that its bottom is crossed. -/
theorem c164_cube_twisted : ∃ g e, convertMesh (oneCell 3 cube) = .ok g ∧ e ∈ g.elems ∧ e.kind = .hexahedron ∧
    e.nodes = [1, 2, 4, 3, 5, 6, 8, 7] ∧
    (e.nodes.map (nodeAt cube)).take 4 = [⟨0, 0, 0⟩, ⟨1, 0, 0⟩, ⟨0, 1, 0⟩, ⟨1, 1, 0⟩] := by
  obtain ⟨g, h⟩ := (c164_defined (oneCell 3 cube)).2 ⟨by simp [oneCell], by simp [oneCell, cube]⟩
  obtain ⟨e, h1, h2, h3⟩ := c164_hexahedron rfl h (fun i j k => i.toNat + 2 * j.toNat + 4 * k.toNat)
    (List.mem_singleton.2 rfl)
  exact ⟨g, e, h, h1, h2, h3, by rw [h3]; rfl⟩

/-- On a line, where the edges are the cells, every cell is written twice. -/
theorem c164_line_twice {m : Mesh} {g : Gmesh} (hd : m.dim = 1) (hc : m.cells = m.edges) (h : convertMesh m = .ok g) :
    (g.elems.map fun e => (e.kind, e.nodes)).drop m.pts.length =
      m.edges.map (fun e => (Kind.edge, e.map (· + 1))) ++ m.edges.map (fun e => (Kind.edge, e.map (· + 1))) := by
  obtain ⟨-, -, h3⟩ := convert_spec h
  show (shapes g).drop _ = _
  have e : m.cells.flatMap (fun c => cellShapes m.dim (cellNodes m.pts c)) =
      m.edges.map (fun e => (Kind.edge, e.map (· + 1))) := by
    rw [hc, hd]
    induction m.edges with
    | nil => rfl
    | cons c cs ih => rw [List.flatMap_cons, List.map_cons, ih]; simp [cellShapes, cellNodes]
  have hl : ((List.range' 1 m.pts.length).map (fun n => (Kind.vertex, [n]))).length = m.pts.length := by simp
  rw [h3, e, head, List.append_assoc]
  exact List.drop_left' hl

example : ∃ g, convertMesh ⟨1, [⟨0, 0, 0⟩, ⟨1, 0, 0⟩], [[0, 1]], [[0, 1]]⟩ = .ok g ∧
    (g.elems.map fun e => (e.kind, e.nodes)) = [(.vertex, [1]), (.vertex, [2]), (.edge, [1, 2]), (.edge, [1, 2])] :=
  ⟨_, rfl, rfl⟩

end Verif.Props.GmshOut
