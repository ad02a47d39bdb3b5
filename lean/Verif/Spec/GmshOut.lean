import Verif.Spec.Earcut
import Mathlib.Data.Real.Basic
/-!
Elements of GMSH, given by the numbers of their nodes: polygons along a boundary, triangles that tile, tetrahedra and
hexahedra.
-/
namespace Verif.Spec

/-- The position of the node with a number; numbers start at one. -/
def nodeAt (pts : List (P3 ℝ)) (n : Nat) : P3 ℝ := pts.getD (n - 1) ⟨0, 0, 0⟩

/-- The point of the plane. -/
def flat2 (p : P3 ℝ) : P2 ℝ := ⟨p.x, p.y⟩

/-- `q` lists a convex polygon with distinct vertices counter-clockwise. -/
def ConvexRing (q : List (P2 ℝ)) : Prop := TurnsLeft q ∧ q.Nodup ∧ 0 < shoelace q

/-- The nodes are met in this order along the boundary `q`. -/
def Along (pts : List (P3 ℝ)) (ns : List Nat) (q : List (P2 ℝ)) : Prop :=
  ∃ k, (ns.map fun n => flat2 (nodeAt pts n)) = q.rotate k

/-- The triangle with three nodes. -/
def triangleAt (pts : List (P3 ℝ)) (t : Nat × Nat × Nat) : P2 ℝ × P2 ℝ × P2 ℝ :=
  (flat2 (nodeAt pts t.1), flat2 (nodeAt pts t.2.1), flat2 (nodeAt pts t.2.2))

/-- Triangles with three vertices of `q` are flat, clockwise or of area at least `ε / 2`. -/
def Resolved (ε : ℝ) (q : List (P2 ℝ)) : Prop := ∀ a ∈ q, ∀ b ∈ q, ∀ c ∈ q, 0 < turn a b c → ε ≤ turn a b c

/-- The nodes of a hexahedron with corners `f i j k` in the order of GMSH: around the bottom, then around the top. -/
def hexOrder (f : Bool → Bool → Bool → Nat) : List Nat :=
  [f false false false, f true false false, f true true false, f false true false,
   f false false true, f true false true, f true true true, f false true true]

/-- The corners of a hexahedron with the first index running fastest. -/
def gridOrder (f : Bool → Bool → Bool → Nat) : List Nat :=
  [f false false false, f true false false, f false true false, f true true false,
   f false false true, f true false true, f false true true, f true true true]

end Verif.Spec
