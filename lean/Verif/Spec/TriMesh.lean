import Verif.Model.TriRefine
import Mathlib.Algebra.Order.Field.Basic
import Mathlib.Algebra.BigOperators.Group.List.Basic
/-!
Conforming triangle meshes and areas; nothing here refers to how a mesh is refined.
-/
namespace Verif.Spec
open TriRefine

/-- The triSides of a triangle. -/
def triSides (t : Tri) : List Edge := [⟨t.a, t.b⟩, ⟨t.b, t.c⟩, ⟨t.a, t.c⟩]

/-- Number of triangles of the list having `e` as a side. -/
def owners (ts : List Tri) (e : Edge) : Nat := ts.countP fun t => decide (e ∈ triSides t)

/-- Conforming mesh: edges and triangles are stored strictly sorted (so none twice) with increasing
vertex numbers that exist, the triSides of every triangle are stored, and an edge belongs to exactly one
triangle if it is marked as boundary and to exactly two otherwise. -/
structure Conforming {K : Type} (m : Mesh K) : Prop where
  edge_lt : ∀ x ∈ m.edges, x.1.a < x.1.b ∧ x.1.b < m.points.length
  edge_sorted : (m.edges.map Prod.fst).Pairwise (· < ·)
  tri_lt : ∀ t ∈ m.tris, t.a < t.b ∧ t.b < t.c
  tri_sorted : m.tris.Pairwise (· < ·)
  tri_sides : ∀ t ∈ m.tris, ∀ e ∈ triSides t, e ∈ m.edges.map Prod.fst
  shared : ∀ x ∈ m.edges, owners m.tris x.1 = if x.2.bnd then 1 else 2

section
variable {K : Type} [Field K] [LinearOrder K] [IsStrictOrderedRing K]

/-- Twice the signed area of a triangle. -/
def cross (p q r : K × K) : K := (q.1 - p.1) * (r.2 - p.2) - (r.1 - p.1) * (q.2 - p.2)

/-- Area of a stored triangle (0 if a vertex does not exist). -/
def area (pts : List (K × K)) (t : Tri) : K :=
  match pts[t.a]?, pts[t.b]?, pts[t.c]? with
  | some p, some q, some r => |cross p q r| / 2
  | _, _, _ => 0

/-- Area of the mesh. -/
def totalArea (m : Mesh K) : K := (m.tris.map (area m.points)).sum

end
end Verif.Spec
