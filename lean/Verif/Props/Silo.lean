import Verif.Lemmas.Silo
import Verif.Spec.GmshOut
/-!
C165 and C166: meshes and variables in Silo files.
-/
namespace Verif.Props.Silo
open Verif Verif.Spec Verif.Spec.Silo Verif.Silo

section field
variable {K : Type} [Field K]

/-- Triangles: the zones read back are the cells, in their order, with numbers from one; coordinates and counts are those
of the mesh. True is returned exactly if the database is open and both calls succeed. -/
theorem c165_triangles (db : Db K) (pts : List (P2 K)) (cells : List (List Nat)) (h : ∀ c ∈ cells, c.length = 3) :
    ∃ r calls nodes shapes, addTriangles db pts cells = .ok (r, calls) ∧
      readZones nodes shapes = some (cells.map fun c => c.map (· + 1)) ∧
      (r = true ↔ db.isOpen = true ∧ db.lib (.zonelist nodes 1 shapes) = true ∧
        db.lib (.ucdmesh [pts.map P2.x, pts.map P2.y] pts.length cells.length) = true) ∧
      (r = true → calls = [.zonelist nodes 1 shapes, .ucdmesh [pts.map P2.x, pts.map P2.y] pts.length cells.length]) := by
  refine ⟨_, _, _, _, by rw [addTriangles, if_neg fun hc => hc.2 h], read_flatMap fun c hc => by simpa using h c hc, ?_, ?_⟩
  · exact (meshCalls_true db _ _).1
  · exact (meshCalls_true db _ _).2

example : ∃ r calls, addTriangles (K := ℚ) ⟨true, fun _ => true⟩ [⟨0, 0⟩, ⟨1, 0⟩, ⟨0, 1⟩] [[0, 1, 2]] = .ok (r, calls) ∧ r = true :=
  ⟨_, _, rfl, rfl⟩

/-- Tetrahedra: as for triangles. -/
theorem c165_tetrahedra (db : Db K) (pts : List (P3 K)) (cells : List (List Nat)) (h : ∀ c ∈ cells, c.length = 4) :
    ∃ r calls nodes shapes, addTetrahedra db pts cells = .ok (r, calls) ∧
      readZones nodes shapes = some (cells.map fun c => c.map (· + 1)) ∧
      (r = true ↔ db.isOpen = true ∧ db.lib (.zonelist nodes 1 shapes) = true ∧
        db.lib (.ucdmesh [pts.map P3.x, pts.map P3.y, pts.map P3.z] pts.length cells.length) = true) ∧
      (r = true → calls = [.zonelist nodes 1 shapes,
        .ucdmesh [pts.map P3.x, pts.map P3.y, pts.map P3.z] pts.length cells.length]) := by
  refine ⟨_, _, _, _, by rw [addTetrahedra, if_neg fun hc => hc.2 h], read_flatMap fun c hc => by simpa using h c hc, ?_, ?_⟩
  · exact (meshCalls_true db _ _).1
  · exact (meshCalls_true db _ _).2

example : ∃ r calls, addTetrahedra (K := ℚ) ⟨false, fun _ => true⟩ [] [[0, 1, 2, 3]] = .ok (r, calls) ∧ r = false :=
  ⟨_, _, rfl, rfl⟩

/-- Quadrangles of Cartesian meshes, whose points are listed by rows: the zones read back have them along the boundary. -/
theorem c165_quadrangles (db : Db K) (pts : List (P2 K)) (cells : List (Bool → Bool → Nat)) :
    ∃ r calls nodes shapes, addQuadrangles db pts (cells.map rowOrder) = .ok (r, calls) ∧
      readZones nodes shapes = some (cells.map fun f => ringOrder fun i j => f i j + 1) ∧
      (r = true ↔ db.isOpen = true ∧ db.lib (.zonelist nodes 1 shapes) = true ∧
        db.lib (.ucdmesh [pts.map P2.x, pts.map P2.y] pts.length cells.length) = true) ∧
      (r = true → calls = [.zonelist nodes 1 shapes, .ucdmesh [pts.map P2.x, pts.map P2.y] pts.length cells.length]) := by
  have h : ∀ c ∈ cells.map rowOrder, c.length = 4 := by
    intro c hc
    obtain ⟨f, -, rfl⟩ := List.mem_map.1 hc
    rfl
  refine ⟨_, _, (cells.map rowOrder).flatMap fun c => [0, 1, 3, 2].map fun i => c.getD i 0 + 1,
    [(4, (cells.map rowOrder).length)], by rw [addQuadrangles, if_neg fun hc => hc.2 h], ?_, ?_⟩
  · rw [read_flatMap fun c hc => by simp, List.map_map]
    rfl
  · have := (meshCalls_true db (.zonelist ((cells.map rowOrder).flatMap fun c => [0, 1, 3, 2].map fun i => c.getD i 0 + 1) 1
      [(4, (cells.map rowOrder).length)]) (.ucdmesh (coords2 pts) pts.length (cells.map rowOrder).length))
    rw [List.length_map] at this ⊢
    exact this

example : rowOrder (fun i j => i.toNat + 2 * j.toNat) = [0, 1, 2, 3] ∧
    ringOrder (fun i j => i.toNat + 2 * j.toNat + 1) = [1, 2, 4, 3] := ⟨rfl, rfl⟩

/-- Hexahedra of Cartesian meshes, whose points are listed with the first index running fastest: the zones read back have
them around the bottom and then around the top. -/
theorem c165_hexahedra (db : Db K) (pts : List (P3 K)) (cells : List (Bool → Bool → Bool → Nat)) :
    ∃ r calls nodes shapes, addHexahedra db pts (cells.map gridOrder) = .ok (r, calls) ∧
      readZones nodes shapes = some (cells.map fun f => hexOrder fun i j k => f i j k + 1) ∧
      (r = true ↔ db.isOpen = true ∧ db.lib (.zonelist nodes 1 shapes) = true ∧
        db.lib (.ucdmesh [pts.map P3.x, pts.map P3.y, pts.map P3.z] pts.length cells.length) = true) ∧
      (r = true → calls = [.zonelist nodes 1 shapes,
        .ucdmesh [pts.map P3.x, pts.map P3.y, pts.map P3.z] pts.length cells.length]) := by
  have h : ∀ c ∈ cells.map gridOrder, c.length = 8 := by
    intro c hc
    obtain ⟨f, -, rfl⟩ := List.mem_map.1 hc
    rfl
  refine ⟨_, _, (cells.map gridOrder).flatMap fun c => [0, 1, 3, 2, 4, 5, 7, 6].map fun i => c.getD i 0 + 1,
    [(8, (cells.map gridOrder).length)], by rw [addHexahedra, if_neg fun hc => hc.2 h], ?_, ?_⟩
  · rw [read_flatMap fun c hc => by simp, List.map_map]
    rfl
  · have := (meshCalls_true db (.zonelist ((cells.map gridOrder).flatMap fun c =>
      [0, 1, 3, 2, 4, 5, 7, 6].map fun i => c.getD i 0 + 1) 1
      [(8, (cells.map gridOrder).length)]) (.ucdmesh (coords3 pts) pts.length (cells.map gridOrder).length))
    rw [List.length_map] at this ⊢
    exact this

example : gridOrder (fun i j k => i.toNat + 2 * j.toNat + 4 * k.toNat) = [0, 1, 2, 3, 4, 5, 6, 7] := rfl

/-- Polygons, with as many faces as points: the zones read back are the cells with their points in the order of the mesh. -/
theorem c165_polygons (db : Db K) (pts : List (P2 K)) (cells : List (List Nat × Nat)) (h3 : ∀ c ∈ cells, 2 < c.1.length)
    (hf : ∀ c ∈ cells, c.2 = c.1.length) :
    ∃ r calls nodes shapes, addPolygons db pts cells = .ok (r, calls) ∧
      readZones nodes shapes = some (cells.map fun c => c.1.map (· + 1)) ∧
      (r = true ↔ db.isOpen = true ∧ db.lib (.zonelist nodes 1 shapes) = true ∧
        db.lib (.ucdmesh [pts.map P2.x, pts.map P2.y] pts.length cells.length) = true) ∧
      (r = true → calls = [.zonelist nodes 1 shapes, .ucdmesh [pts.map P2.x, pts.map P2.y] pts.length cells.length]) := by
  refine ⟨_, _, _, _, by rw [addPolygons, if_neg fun hc => hc.2 h3], read_polygons hf, ?_, ?_⟩
  · exact (meshCalls_true db _ _).1
  · exact (meshCalls_true db _ _).2

example : (∀ c ∈ [([0, 1, 2, 3, 4], 5), ([1, 2, 5], 3)], 2 < c.1.length) ∧
    ∀ c ∈ [([0, 1, 2, 3, 4], 5), ([1, 2, 5], 3)], c.2 = c.1.length := by decide

omit [Field K] in
/-- Clouds of points: true is returned exactly if they are written. -/
theorem c165_points (db : Db K) (pts : List (P2 K)) :
    ((addPointmesh db pts).1 = true ↔
      db.isOpen = true ∧ db.lib (.pointmesh [pts.map P2.x, pts.map P2.y] pts.length) = true) ∧
    ((addPointmesh db pts).1 = true → (addPointmesh db pts).2 = [.pointmesh [pts.map P2.x, pts.map P2.y] pts.length]) := by
  unfold addPointmesh Db.put coords2
  cases db.isOpen <;> cases db.lib (.pointmesh [pts.map P2.x, pts.map P2.y] pts.length) <;> simp

example : (addPointmesh (K := ℚ) ⟨true, fun _ => true⟩ [⟨0, 0⟩]).1 = true := rfl

end field

section ordered
variable {K : Type} [Field K] [LinearOrder K] [IsStrictOrderedRing K]

/-- Polyhedra: the faces read back are those of the mesh, and every zone has the faces of its cell, each in the order of
the mesh or reversed. If the face is plane, the cell behind it and the first three points of the face turn as the face
does, the order read back is counter-clockwise seen from outside. -/
theorem c165_polyhedra_partial (db : Db K) (m : Mesh3 K) (ho : db.isOpen = true)
    (h : ∀ c ∈ m.cells, ∀ f ∈ c.2, f < m.faces.length ∧ 3 ≤ (m.faces.getD f []).length) :
    ∃ r calls nc nl fc fl zs, addPolyhedra db m = .ok (r, calls) ∧
      cutBlocks nc nl = some m.faces ∧ cutBlocks fc fl = some zs ∧
      List.Forall₂ (fun c z => List.Forall₂ (fun f e => ∃ ps, readFace m.faces e = some ps ∧
        (ps = m.faces.getD f [] ∨ ps = (m.faces.getD f []).reverse) ∧
        ∀ n d, Regular n d (c.1.map fun i => m.pts.getD i ⟨0, 0, 0⟩) ((m.faces.getD f []).map fun i => m.pts.getD i ⟨0, 0, 0⟩) →
          0 < Spec.Silo.dot (vecArea (ps.map fun i => m.pts.getD i ⟨0, 0, 0⟩)) n) c.2 z) m.cells zs ∧
      (r = true ↔ db.lib (.phzonelist nc nl fc fl) = true ∧
        db.lib (.ucdmesh [m.pts.map P3.x, m.pts.map P3.y, m.pts.map P3.z] m.pts.length m.cells.length) = true) ∧
      (r = true → calls = [.phzonelist nc nl fc fl,
        .ucdmesh [m.pts.map P3.x, m.pts.map P3.y, m.pts.map P3.z] m.pts.length m.cells.length]) := by
  obtain ⟨fl, zs, h1, h2, h3⟩ := allFaces_ok m m.cells h
  have hc := meshCalls_true db (.phzonelist (m.faces.map List.length) m.faces.flatten (m.cells.map fun c => c.2.length) fl)
    (.ucdmesh (coords3 m.pts) m.pts.length m.cells.length)
  refine ⟨_, _, _, _, _, fl, zs, by rw [addPolyhedra, ho, h1]; rfl, cut_flatten m.faces, h2, h3, ?_, hc.2⟩
  exact ⟨fun h => (hc.1.1 h).2, fun h => hc.1.2 ⟨ho, h⟩⟩

/-- The bottom of a tetrahedron, listed counter-clockwise seen from above. -/
example : Regular (K := ℚ) ⟨0, 0, -1⟩ 0 [⟨0, 0, 0⟩, ⟨1, 0, 0⟩, ⟨0, 1, 0⟩, ⟨0, 0, 1⟩] [⟨0, 0, 0⟩, ⟨1, 0, 0⟩, ⟨0, 1, 0⟩] := by
  refine ⟨by decide +kernel, by decide +kernel, by decide +kernel, ?_⟩
  intro a b c l h
  simp only [List.cons.injEq] at h
  obtain ⟨rfl, rfl, rfl, rfl⟩ := h
  decide +kernel

end ordered

/-- Two tetrahedra with a common face that has a hanging node on its first edge: the points are those of the face, the
node being the second, and the two apices. -/
def twoCells : Mesh3 ℚ :=
  ⟨[⟨0, 0, 0⟩, ⟨1, 0, 0⟩, ⟨2, 0, 0⟩, ⟨0, 2, 0⟩, ⟨0, 0, 1⟩, ⟨0, 0, -1⟩],
   [[0, 1, 2, 3], [0, 1, 4], [1, 2, 4], [2, 3, 4], [0, 3, 4], [0, 1, 5], [1, 2, 5], [2, 3, 5], [0, 3, 5]],
   [([0, 1, 2, 3, 4], [0, 1, 2, 3, 4]), ([0, 1, 2, 3, 5], [0, 5, 6, 7, 8])]⟩

/-- A face whose first three points are aligned is written in the same order for both its cells. For one of them, here the
first, it is clockwise seen from outside: the cell is above the face and so is the vector area. -/
theorem c165_aligned_violated : ∃ calls nc nl fc fl z0 z1,
    addPolyhedra ⟨true, fun _ => true⟩ twoCells = .ok (true, calls) ∧ Call.phzonelist nc nl fc fl ∈ calls ∧
    cutBlocks fc fl = some [z0, z1] ∧ z0.head? = some 0 ∧ z1.head? = some 0 ∧
    readFace twoCells.faces 0 = some [0, 1, 2, 3] ∧
    (∀ i ∈ [0, 1, 2, 3], (twoCells.pts.getD i ⟨0, 0, 0⟩).z = 0) ∧ (∀ i ∈ [0, 1, 2, 3, 4], 0 ≤ (twoCells.pts.getD i ⟨0, 0, 0⟩).z) ∧
    vecArea ([0, 1, 2, 3].map fun i => twoCells.pts.getD i ⟨0, 0, 0⟩) = ⟨0, 0, 4⟩ := by
  have hf : allFaces twoCells twoCells.cells = .ok [0, 1, 2, 3, -5, 0, -6, -7, -8, 8] := by decide +kernel
  refine ⟨[.phzonelist (twoCells.faces.map List.length) twoCells.faces.flatten [5, 5] [0, 1, 2, 3, -5, 0, -6, -7, -8, 8],
    .ucdmesh (coords3 twoCells.pts) 6 2], _, _, [5, 5], [0, 1, 2, 3, -5, 0, -6, -7, -8, 8], [0, 1, 2, 3, -5], [0, -6, -7, -8, 8], ?_, List.mem_cons_self, rfl, rfl, rfl, rfl,
    by decide +kernel, by decide +kernel, by decide +kernel⟩
  rw [addPolyhedra, hf]
  rfl

section field
variable {K : Type} [Field K]

omit [Field K] in
/-- One column of values: written with its name and centering; true is returned exactly if this succeeds. -/
theorem c166_column (db : Db K) (name : String) (v : List K) (nodal : Bool) :
    ((addColumn db name v nodal).1 = true ↔ db.isOpen = true ∧ db.lib (.ucdvar name v nodal) = true) ∧
    ((addColumn db name v nodal).1 = true → (addColumn db name v nodal).2 = [.ucdvar name v nodal]) := by
  unfold addColumn Db.put
  cases db.isOpen <;> cases db.lib (.ucdvar name v nodal) <;> simp

example : (addColumn (K := ℚ) ⟨true, fun _ => true⟩ "u" [1, 2] true).1 = true := rfl

omit [Field K] in
/-- Vectors: with an open database the components are written as columns with the endings `_x`, `_y` and `_z`, and the vector
as an expression of them. -/
theorem c166_vectors (db : Db K) (name : String) (x y z : List K) (nodal : Bool) (h : db.isOpen = true) :
    (addColumns2 db name x y nodal).2 = [.ucdvar (name ++ "_x") x nodal, .ucdvar (name ++ "_y") y nodal,
      .defvars name [name ++ "_x", name ++ "_y"]] ∧
    (addColumns3 db name x y z nodal).2 = [.ucdvar (name ++ "_x") x nodal, .ucdvar (name ++ "_y") y nodal,
      .ucdvar (name ++ "_z") z nodal, .defvars name [name ++ "_x", name ++ "_y", name ++ "_z"]] := by
  simp [addColumns2, addColumns3, addColumn, addExpression, h]

example : (Db.isOpen (K := ℚ) ⟨true, fun _ => true⟩) = true := rfl

omit [Field K] in
/-- Values at points. -/
theorem c166_pointvars (db : Db K) (v : List K) (vs : List (List K)) :
    ∃ calls, addPointVars db (v :: vs) = .ok (db.isOpen && db.lib (.pointvar (v :: vs) v.length), calls) ∧
      (db.isOpen = true → calls = [.pointvar (v :: vs) v.length]) :=
  ⟨_, rfl, fun h => by rw [if_pos h]⟩

example : ∃ calls, addPointVars (K := ℚ) ⟨true, fun _ => false⟩ [[1], [2]] = .ok (false, calls) := ⟨_, rfl⟩

omit [Field K] in
/-- Failures are not reported for vectors, even with a closed database, for expressions and for a `std::vector`: true is
returned although nothing is written. Without values at points the first of them is read nevertheless. -/
theorem c166_report_violated :
    (∀ (lib : Call K → Bool) name x y z nodal, addColumns2 ⟨false, lib⟩ name x y nodal = (true, []) ∧
      addColumns3 ⟨false, lib⟩ name x y z nodal = (true, [])) ∧
    (∀ (lib : Call K → Bool) name parts, addExpression ⟨false, lib⟩ name parts = (true, [])) ∧
    (∀ name v nodal, (addVector (K := K) ⟨true, fun _ => false⟩ name v nodal).1 = true) ∧
    ∀ db : Db K, (addPointVars db []).IsUB := by
  refine ⟨fun _ _ _ _ _ _ => ⟨rfl, rfl⟩, fun _ _ _ => rfl, fun _ _ _ => rfl, fun _ => trivial⟩

example : (Db.put (K := ℚ) ⟨true, fun _ => false⟩ (.ucdvar "u" [1] true)) = false := rfl

end field

end Verif.Props.Silo
