import Verif.Model.Lookup
import Verif.Model.Sort
import Mathlib.Algebra.Field.Defs
/-!
Uniform refinement of triangle meshes: `simple_mesher<triangular_mesh>` (`mesh/meshgen.hpp:56-253`).

Simplifications: the containers `points` and `nodes` always have the same length (every push goes to
both), so only `points` is kept; `edges` and `boundary_info` are kept as one list of pairs; coordinates
are elements of a field; a failed `assert` is undefined behaviour.
-/
namespace Verif.TriRefine

/-- `boundary_descriptor`, `mesh/mesh_storage.hpp:53-84`: identifier and `is_boundary` flag (the tag and
the internal flag are never set by the mesher). -/
structure Bd where
  id : Nat
  bnd : Bool
  deriving DecidableEq, Repr

/-- The default constructor, `mesh/mesh_storage.hpp:61-63`. -/
def Bd.inner : Bd := ⟨0, false⟩

/-- An edge: two point identifiers, in increasing order after construction. -/
structure Edge where
  a : Nat
  b : Nat
  deriving DecidableEq, Repr

/-- A triangle: three point identifiers, in increasing order after construction. -/
structure Tri where
  a : Nat
  b : Nat
  c : Nat
  deriving DecidableEq, Repr

/-- `operator<` of edges (comparison of `std::array`), `geometry/element_simplicial.hpp:67-70`. -/
instance : LT Edge := ⟨fun x y => x.a < y.a ∨ (x.a = y.a ∧ x.b < y.b)⟩
instance : DecidableLT Edge := fun x y => inferInstanceAs (Decidable (x.a < y.a ∨ (x.a = y.a ∧ x.b < y.b)))

/-- `operator<` of triangles. -/
instance : LT Tri :=
  ⟨fun x y => x.a < y.a ∨ (x.a = y.a ∧ (x.b < y.b ∨ (x.b = y.b ∧ x.c < y.c)))⟩
instance : DecidableLT Tri := fun x y =>
  inferInstanceAs (Decidable (x.a < y.a ∨ (x.a = y.a ∧ (x.b < y.b ∨ (x.b = y.b ∧ x.c < y.c)))))

/-- `edge_type({p, q})`: the constructor sorts, `geometry/element_simplicial.hpp:57-61`. -/
def mkEdge (p q : Nat) : Edge := if q < p then ⟨q, p⟩ else ⟨p, q⟩

/-- `surface_type({p, q, r})`: the constructor sorts. -/
def mkTri (p q r : Nat) : Tri :=
  match Sort.sortBy (fun x y => decide (x < y)) [p, q, r] with
  | [x, y, z] => ⟨x, y, z⟩
  | _ => ⟨p, q, r⟩

/-- Storage of a triangle mesh. -/
structure Mesh (K : Type) where
  points : List (K × K)
  edges : List (Edge × Bd)
  tris : List Tri
  deriving DecidableEq

section
variable {K : Type} [Field K]

/-- `(p0 + p1)/2.`, `mesh/meshgen.hpp:184`. -/
def midpoint (p q : K × K) : K × K := ((p.1 + q.1) / 2, (p.2 + q.2) / 2)

/-- The loop over the edges, `mesh/meshgen.hpp:173-203`: the points with the midpoints appended, and
the two halves of every edge with the boundary descriptor of the edge. -/
def breakEdges : List (K × K) → List (Edge × Bd) → Outcome (List (K × K) × List (Edge × Bd))
  | pts, [] => .ok (pts, [])
  | pts, (e, b) :: es =>
    match pts[e.a]?, pts[e.b]? with
    | some p, some q =>
      let pmi := pts.length
      match breakEdges (pts ++ [midpoint p q]) es with
      | .ok (pts', ne) => .ok (pts', (mkEdge e.a pmi, b) :: (mkEdge e.b pmi, b) :: ne)
      | o => o
    | _, _ => .ub "assert(ptids[0] < storage->points.size())"

end

/-- The lambda `eofs`, `mesh/meshgen.hpp:214-222`. -/
def eofs (edges : List Edge) (off : Nat) (e : Edge) : Outcome Nat :=
  let i := Lookup.lowerBound edges e
  match edges[i]? with
  | some e' => if e = e' then .ok (i + off) else .throws "Edge not found. This is a bug."
  | none => .throws "Edge not found. This is a bug."

/-- One turn of the loop over the surfaces, `mesh/meshgen.hpp:205-237`; `np` is the number of points
after the edge loop. -/
def splitTri (edges : List Edge) (off np : Nat) (t : Tri) : Outcome (List (Edge × Bd) × List Tri) :=
  if t.a < np ∧ t.b < np ∧ t.c < np then
    (eofs edges off (mkEdge t.a t.b)).bind fun p0 =>
    (eofs edges off (mkEdge t.b t.c)).bind fun p1 =>
    (eofs edges off (mkEdge t.a t.c)).bind fun p2 =>
    .ok ([(mkEdge p0 p1, Bd.inner), (mkEdge p2 p1, Bd.inner), (mkEdge p0 p2, Bd.inner)],
      [mkTri t.a p0 p2, mkTri t.b p0 p1, mkTri t.c p2 p1, mkTri p0 p2 p1])
  else .ub "assert(ptids[0] < storage->points.size())"

/-- The loop over the surfaces. -/
def splitTris (edges : List Edge) (off np : Nat) : List Tri → Outcome (List (Edge × Bd) × List Tri)
  | [] => .ok ([], [])
  | t :: ts =>
    (splitTri edges off np t).bind fun r =>
    (splitTris edges off np ts).bind fun rs => .ok (r.1 ++ rs.1, r.2 ++ rs.2)

section
variable {K : Type} [Field K]

/-- `simple_mesher<triangular_mesh>::refine`, `mesh/meshgen.hpp:161-252`. -/
def refine (m : Mesh K) : Outcome (Mesh K) :=
  let off := m.points.length
  (breakEdges m.points m.edges).bind fun r =>
  (splitTris (m.edges.map Prod.fst) off r.1.length m.tris).bind fun s =>
  .ok { points := r.1
        edges := Sort.sortBy (fun x y => decide (x.1 < y.1)) (r.2 ++ s.1)
        tris := Sort.sortBy (fun x y => decide (x < y)) s.2 }

/-- `k` calls of `refine`. -/
def refineN : Nat → Mesh K → Outcome (Mesh K)
  | 0, m => .ok m
  | k + 1, m => (refine m).bind (refineN k)

/-- `init_pattern_1`, `mesh/meshgen.hpp:71-113` (the pattern the constructor uses). -/
def pattern1 : Mesh K :=
  { points := [(0, 0), (1, 0), (1, 1), (0, 1), (1 / 2, 1 / 2)]
    edges := [(mkEdge 0 1, ⟨0, true⟩), (mkEdge 0 3, ⟨3, true⟩), (mkEdge 0 4, Bd.inner),
      (mkEdge 1 2, ⟨1, true⟩), (mkEdge 1 4, Bd.inner), (mkEdge 2 3, ⟨2, true⟩),
      (mkEdge 2 4, Bd.inner), (mkEdge 3 4, Bd.inner)]
    tris := [mkTri 0 1 4, mkTri 0 3 4, mkTri 1 2 4, mkTri 2 3 4] }

/-- `init_pattern_2`, `mesh/meshgen.hpp:115-150`. -/
def pattern2 : Mesh K :=
  { points := [(0, 0), (1, 0), (1, 1), (0, 1)]
    edges := [(mkEdge 0 1, ⟨0, true⟩), (mkEdge 0 2, Bd.inner), (mkEdge 0 3, ⟨3, true⟩),
      (mkEdge 1 2, ⟨1, true⟩), (mkEdge 2 3, ⟨2, true⟩)]
    tris := [mkTri 0 1 2, mkTri 0 2 3] }

end
end Verif.TriRefine
