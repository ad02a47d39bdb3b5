import Verif.Spec.SpaceIntegral
import Verif.Spec.Points
/-!
Meshes for post-processing: what is asked of the input, volumes of tetrahedra given by numbers of points.
-/
namespace Verif.Spec.PostMesh
open Verif.Spec

variable {K : Type} [Field K]

/-- Points by their numbers. -/
def pointsOf (pts : List (P3 K)) (ids : List Nat) : List (P3 K) := ids.map fun i => pts.getD i ⟨0, 0, 0⟩

/-- Points of the plane by their numbers. -/
def pointsOf2 (pts : List (P2 K)) (ids : List Nat) : List (P2 K) := ids.map fun i => pts.getD i ⟨0, 0⟩

/-- A mesh in space with `n` nodes: faces have three or more nodes, the faces of a cell are among the faces and their
nodes among those of the cell. -/
structure Proper3 (n : Nat) (pts : List (P3 K)) (faces : List (List Nat)) (cells : List (List Nat × List Nat)) : Prop where
  nodes : n ≤ pts.length
  face : ∀ f ∈ faces, 3 ≤ f.length ∧ ∀ i ∈ f, i < n
  cell : ∀ c ∈ cells, c.1 ≠ [] ∧ (∀ i ∈ c.1, i < n) ∧
    ∀ j ∈ c.2, j < faces.length ∧ ∀ i ∈ faces.getD j [], i ∈ c.1

/-- The volume of tetrahedra. -/
def tetsVol [LinearOrder K] (pts : List (P3 K)) (ts : List (Nat × Nat × Nat × Nat)) : K :=
  (ts.map fun t => |vol6 (pts.getD t.1 ⟨0, 0, 0⟩) (pts.getD t.2.1 ⟨0, 0, 0⟩) (pts.getD t.2.2.1 ⟨0, 0, 0⟩)
    (pts.getD t.2.2.2 ⟨0, 0, 0⟩)|).sum / 6

/-- The faces `fs`, each with the direction its nodes turn, bound a convex cell with planar faces. -/
structure ConvexCell [LinearOrder K] (pts : List (P3 K)) (faces : List (List Nat)) (c : List Nat × List Nat)
    (fs : List (List (P3 K) × Bool)) : Prop where
  same : fs.map Prod.fst = c.2.map fun j => pointsOf pts (faces.getD j [])
  convex : ConvexSurface (pointsOf pts c.1) fs
  closed : ClosedSurface fs
  planar : ∀ j ∈ c.2, 3 < (faces.getD j []).length → Planar (pointsOf pts (faces.getD j []))

end Verif.Spec.PostMesh
