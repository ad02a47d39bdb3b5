import Verif.Model.Earcut
import Verif.Model.Polyhedron
/-!
Meshes for post-processing: `PostMesh` of two- and three-dimensional meshes, `output/postMesh.hpp:85-355`, with
`cell_nodes`, `face_nodes` of `output/gmshDisk.hpp:236-310`, and the averages of
`NewtonSolver::output_continuous_displacement`, `mechanics/NewtonSolver/NewtonSolver.hpp:841-895`.

A mesh is given by what the class reads: the points, the number of nodes, the point identifiers of faces and cells, and
for each cell the numbers (`lookup`) of its faces, all in the order of the mesh. Coordinates are exact. `simplicial_mesh`
sorts the identifiers within an element; here they stay in the order in which they are given. Edges are copied and left
out. Reading past the end of a vector is undefined.
-/
namespace Verif.PostMesh
open Verif Verif.Spec

variable {K : Type} [Field K]

/-- A three-dimensional mesh. -/
structure Mesh3 (K : Type) where
  pts : List (P3 K)
  nNodes : Nat
  faces : List (List Nat)
  cells : List (List Nat × List Nat)

/-- The points, the tetrahedra and `list_cell_nodes`. -/
structure Post3 (K : Type) where
  pts : List (P3 K)
  vols : List (Nat × Nat × Nat × Nat)
  cellNodes : List (List Nat)

/-- `points(msh, elem)` for identifiers in range. -/
def coords (pts : List (P3 K)) (ids : List Nat) : List (P3 K) := ids.map fun i => pts.getD i ⟨0, 0, 0⟩

/-- The loop over the faces, `postMesh.hpp:205-231`: the points so far and `list_face_nodes`. `num_points` is the number
of points so far. -/
def faceLoop (src : List (P3 K)) : List (List Nat) → List (P3 K) → List (P3 K) × List (List Nat)
  | [], out => (out, [])
  | f :: fs, out =>
    if 3 < f.length then
      let r := faceLoop src fs (out ++ [Polyhedron.bary (coords src f)])
      (r.1, (f ++ [out.length]) :: r.2)
    else
      let r := faceLoop src fs out
      (r.1, f :: r.2)

/-- `split_in_triangles(msh, fc)` from the nodes of a face, `postMesh.hpp:233-254`. -/
def faceTris : List Nat → List (Nat × Nat × Nat)
  | [a, b, c] => [(a, b, c)]
  | l => (List.range (l.length - 1)).map fun i =>
      (l.getD i 0, l.getD ((i + 1) % (l.length - 1)) 0, l.getLastD 0)

/-- The loop over the faces of a cell, `postMesh.hpp:319-331`: the nodes appended to those of the cell and the
tetrahedra. -/
def cellFaces (fn : List (List Nat)) (bar : Nat) : List Nat → List Nat × List (Nat × Nat × Nat × Nat)
  | [] => ([], [])
  | j :: js =>
    let ts := faceTris (fn.getD j [])
    let r := cellFaces fn bar js
    ((if 1 < ts.length then [(ts.getD 1 (0, 0, 0)).2.2] else []) ++ r.1,
      (ts.map fun t => (t.1, t.2.1, t.2.2, bar)) ++ r.2)

/-- The loop over the cells, `postMesh.hpp:298-335`. -/
def cellLoop (src : List (P3 K)) (fn : List (List Nat)) : List (List Nat × List Nat) → List (P3 K) → Post3 K
  | [], out => ⟨out, [], []⟩
  | c :: cs, out =>
    match c.1 with
    | [a, b, d, e] =>
      let r := cellLoop src fn cs out
      ⟨r.pts, (a, b, d, e) :: r.vols, [a, b, d, e] :: r.cellNodes⟩
    | ids =>
      let q := cellFaces fn out.length c.2
      let r := cellLoop src fn cs (out ++ [Polyhedron.bary (coords src ids)])
      ⟨r.pts, q.2 ++ r.vols, (ids ++ [out.length] ++ q.1) :: r.cellNodes⟩

/-- What is read is there: the points of the nodes, of faces with more than three points and of cells that are no
tetrahedra; the latter have known, non-empty faces. -/
def readable3 (m : Mesh3 K) : Bool :=
  decide (m.nNodes ≤ m.pts.length) &&
  (m.faces.all fun f => decide (f.length ≤ 3) || f.all fun i => decide (i < m.pts.length)) &&
  m.cells.all fun c => decide (c.1.length = 4) ||
    ((c.1.all fun i => decide (i < m.pts.length)) &&
      c.2.all fun j => decide (j < m.faces.length) && !(m.faces.getD j []).isEmpty)

/-- `PostMesh(msh)` in three dimensions, `postMesh.hpp:263-337`. -/
def build3 (m : Mesh3 K) : Outcome (Post3 K) :=
  if readable3 m then
    let r := faceLoop m.pts m.faces (m.pts.take m.nNodes)
    .ok (cellLoop m.pts r.2 m.cells r.1)
  else .ub "read past the end"

/-- The average of `output_continuous_displacement` at a node, `NewtonSolver.hpp:853-887`, for one component: `val i p`
is the value of the function of cell `i` at the point `p`. Without data there the code divides zero by zero. -/
def average {P : Type} (val : Nat → P → K) (p : P) (cellNodes : List (List Nat)) (n : Nat) : Option K :=
  let vals := (cellNodes.zipIdx.map fun c => (c.1.filter (· == n)).map fun _ => val c.2 p).flatten
  if vals.length = 0 then none else some (vals.sum / vals.length)

/-- A two-dimensional mesh. -/
structure Mesh2 (K : Type) where
  pts : List (P2 K)
  nNodes : Nat
  cells : List (List Nat)

/-- The points, the triangles and `list_cell_nodes`. -/
structure Post2 (K : Type) where
  pts : List (P2 K)
  surfs : List (Nat × Nat × Nat)
  cellNodes : List (List Nat)

/-- `points(msh, cl)` for identifiers in range. -/
def coords2 (pts : List (P2 K)) (ids : List Nat) : List (P2 K) := ids.map fun i => pts.getD i ⟨0, 0⟩

variable [LinearOrder K]

/-- `split_in_raw_triangles_index`, `raw_simplices.hpp:264-290`. -/
def cellTris (pts : List (P2 K)) (ids : List Nat) : Option (List (Nat × Nat × Nat)) :=
  (Earcut.triangulate (coords2 pts ids)).map fun l =>
    l.map fun t => (ids.getD t.1 0, ids.getD t.2.1 0, ids.getD t.2.2 0)

/-- `PostMesh(msh)` in two dimensions, `postMesh.hpp:105-149`; nothing is said for cells of more than eighty points. -/
def build2 (m : Mesh2 K) : Outcome (Option (Post2 K)) :=
  if m.nNodes ≤ m.pts.length ∧ ∀ c ∈ m.cells, ∀ i ∈ c, i < m.pts.length then
    .ok ((m.cells.mapM (cellTris m.pts)).map fun l => ⟨m.pts.take m.nNodes, l.flatten, m.cells⟩)
  else .ub "read past the end"

end Verif.PostMesh
