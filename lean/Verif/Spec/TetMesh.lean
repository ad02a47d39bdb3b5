import Verif.Model.TetRefine
import Mathlib.Algebra.Order.Field.Basic
import Mathlib.Algebra.BigOperators.Group.List.Basic
/-!
Conforming tetrahedral meshes, volumes and sizes; nothing here refers to how a mesh is refined.
-/
namespace Verif.Spec.TetMesh
open TriRefine hiding Mesh
open TetRefine

/-- The faces of a tetrahedron. -/
def faces (t : Tet) : List Tri := [⟨t.a, t.b, t.c⟩, ⟨t.a, t.b, t.d⟩, ⟨t.a, t.c, t.d⟩, ⟨t.b, t.c, t.d⟩]

/-- The edges of a tetrahedron. -/
def edges (t : Tet) : List Edge :=
  [⟨t.a, t.b⟩, ⟨t.a, t.c⟩, ⟨t.a, t.d⟩, ⟨t.b, t.c⟩, ⟨t.b, t.d⟩, ⟨t.c, t.d⟩]

/-- Number of tetrahedra of the list having `f` as a face. -/
def owners (ts : List Tet) (f : Tri) : Nat := ts.countP fun t => decide (f ∈ faces t)

/-- Conforming mesh: edges, faces and tetrahedra are stored strictly sorted (so none twice) with increasing
vertex numbers that exist, the edges and faces of every tetrahedron are stored and there are no others, and a
face belongs to exactly one tetrahedron if it is marked as boundary and to exactly two otherwise. -/
structure Conforming {K : Type} (m : Mesh K) : Prop where
  vol_lt : ∀ t ∈ m.vols, t.a < t.b ∧ t.b < t.c ∧ t.c < t.d ∧ t.d < m.points.length
  vol_sorted : m.vols.Pairwise (· < ·)
  edge_sorted : m.edges.Pairwise (· < ·)
  edge_mem : ∀ e, e ∈ m.edges ↔ ∃ t ∈ m.vols, e ∈ edges t
  face_sorted : (m.surfaces.map Prod.fst).Pairwise (· < ·)
  face_mem : ∀ f, f ∈ m.surfaces.map Prod.fst ↔ ∃ t ∈ m.vols, f ∈ faces t
  shared : ∀ x ∈ m.surfaces, owners m.vols x.1 = if x.2.bnd then 1 else 2

section
variable {K : Type} [Field K] [LinearOrder K] [IsStrictOrderedRing K]

/-- Six times the signed volume of a tetrahedron. -/
def det (p q r s : K × K × K) : K :=
  (q.1 - p.1) * ((r.2.1 - p.2.1) * (s.2.2 - p.2.2) - (r.2.2 - p.2.2) * (s.2.1 - p.2.1)) -
  (q.2.1 - p.2.1) * ((r.1 - p.1) * (s.2.2 - p.2.2) - (r.2.2 - p.2.2) * (s.1 - p.1)) +
  (q.2.2 - p.2.2) * ((r.1 - p.1) * (s.2.1 - p.2.1) - (r.2.1 - p.2.1) * (s.1 - p.1))

/-- Coordinates of a stored point. -/
def pt (pts : List (K × K × K)) (i : Nat) : K × K × K := pts.getD i (0, 0, 0)

/-- Volume of a stored tetrahedron. -/
def volume (pts : List (K × K × K)) (t : Tet) : K :=
  |det (pt pts t.a) (pt pts t.b) (pt pts t.c) (pt pts t.d)| / 6

/-- Volume of the mesh. -/
def totalVolume (m : Mesh K) : K := (m.vols.map (volume m.points)).sum

/-- Square of the distance of two points. -/
def dist2 (p q : K × K × K) : K := (q.1 - p.1) ^ 2 + (q.2.1 - p.2.1) ^ 2 + (q.2.2 - p.2.2) ^ 2

/-- Square of the length of an edge. -/
def len2 (pts : List (K × K × K)) (e : Edge) : K :=
  dist2 (pt pts e.a) (pt pts e.b)

/-- The point with barycentric coordinates `l0`, `l1`, `l2`, `l3`. -/
def bary (p q r s : K × K × K) (l0 l1 l2 l3 : K) : K × K × K :=
  (l0 * p.1 + l1 * q.1 + l2 * r.1 + l3 * s.1, l0 * p.2.1 + l1 * q.2.1 + l2 * r.2.1 + l3 * s.2.1,
    l0 * p.2.2 + l1 * q.2.2 + l2 * r.2.2 + l3 * s.2.2)

/-- The closed tetrahedron with the given vertices. -/
def InHull (p q r s x : K × K × K) : Prop :=
  ∃ l0 l1 l2 l3 : K, 0 ≤ l0 ∧ 0 ≤ l1 ∧ 0 ≤ l2 ∧ 0 ≤ l3 ∧ l0 + l1 + l2 + l3 = 1 ∧ x = bary p q r s l0 l1 l2 l3

/-- The open tetrahedron with the given vertices. -/
def InOpen (p q r s x : K × K × K) : Prop :=
  ∃ l0 l1 l2 l3 : K, 0 < l0 ∧ 0 < l1 ∧ 0 < l2 ∧ 0 < l3 ∧ l0 + l1 + l2 + l3 = 1 ∧ x = bary p q r s l0 l1 l2 l3

/-- The point belongs to a stored tetrahedron. -/
def InTet (pts : List (K × K × K)) (t : Tet) (x : K × K × K) : Prop :=
  InHull (pt pts t.a) (pt pts t.b) (pt pts t.c) (pt pts t.d) x

/-- The point is strictly inside a stored tetrahedron. -/
def InTetOpen (pts : List (K × K × K)) (t : Tet) (x : K × K × K) : Prop :=
  InOpen (pt pts t.a) (pt pts t.b) (pt pts t.c) (pt pts t.d) x

/-- The sides of the unit cube, numbered as in the mesher: `z = 0`, `y = 0`, `x = 0`, `z = 1`, `y = 1`, `x = 1`. -/
def OnSide (i : Nat) (p : K × K × K) : Prop :=
  match i with
  | 0 => p.2.2 = 0
  | 1 => p.2.1 = 0
  | 2 => p.1 = 0
  | 3 => p.2.2 = 1
  | 4 => p.2.1 = 1
  | 5 => p.1 = 1
  | _ => False

/-- Every face marked as boundary lies on the side of the cube whose number it carries. -/
def SidesOk (m : Mesh K) : Prop :=
  ∀ x ∈ m.surfaces, x.2.bnd = true →
    OnSide x.2.id (pt m.points x.1.a) ∧ OnSide x.2.id (pt m.points x.1.b) ∧ OnSide x.2.id (pt m.points x.1.c)

end
end Verif.Spec.TetMesh
