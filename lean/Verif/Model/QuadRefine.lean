import Verif.Model.TriRefine
/-!
The mesher of Cartesian meshes of the unit square: `simple_mesher<cartesian_mesh<T,2>>`
(`mesh/meshgen.hpp:527-722`), and the measures of `geometry/geometry_hexahedral.hpp:252-306`.

Simplifications: as in `Model/TriRefine`. Elements keep the order of the points they are constructed with
(`geometry/element_hexahedral.hpp`); the order of elements is that of `std::array`.
-/
namespace Verif.QuadRefine
open TriRefine (Edge Bd midpoint eofs)

/-- A quadrangle: the numbers of its points, in the order lower left, lower right, upper left, upper right up to a
rotation. -/
structure Quad where
  a : Nat
  b : Nat
  c : Nat
  d : Nat
  deriving DecidableEq, Repr

/-- `operator<` of quadrangles. -/
instance : LT Quad := ⟨fun x y => x.a < y.a ∨ (x.a = y.a ∧ (x.b < y.b ∨ (x.b = y.b ∧ (x.c < y.c ∨ (x.c = y.c ∧ x.d < y.d)))))⟩
instance : DecidableLT Quad := fun x y => inferInstanceAs (Decidable (x.a < y.a ∨ (x.a = y.a ∧
  (x.b < y.b ∨ (x.b = y.b ∧ (x.c < y.c ∨ (x.c = y.c ∧ x.d < y.d)))))))

/-- Storage of a mesh. -/
structure Mesh (K : Type) where
  points : List (K × K)
  edges : List (Edge × Bd)
  quads : List Quad
  deriving DecidableEq

section
variable {K : Type} [Field K]

/-- The loop over the edges, `mesh/meshgen.hpp:617-647`. -/
def breakEdges : List (K × K) → List (Edge × Bd) → Outcome (List (K × K) × List (Edge × Bd))
  | pts, [] => .ok (pts, [])
  | pts, (e, b) :: es =>
    match pts[e.a]?, pts[e.b]? with
    | some p, some q =>
      let pmi := pts.length
      match breakEdges (pts ++ [midpoint p q]) es with
      | .ok (pts', ne) => .ok (pts', (⟨e.a, pmi⟩, b) :: (⟨e.b, pmi⟩, b) :: ne)
      | o => o
    | _, _ => .ub "assert(ptids[0] < storage->points.size())"

/-- `(p0 + p1 + p2 + p3) / 4.0`, `mesh/meshgen.hpp:662`. -/
def centre (p q r s : K × K) : K × K := ((p.1 + q.1 + r.1 + s.1) / 4, (p.2 + q.2 + r.2 + s.2) / 4)

/-- The loop over the surfaces, `mesh/meshgen.hpp:649-702`: the points with the centres appended, the new edges and
the new surfaces. -/
def splitQuads (edges : List Edge) (off : Nat) : List (K × K) → List Quad →
    Outcome (List (K × K) × List (Edge × Bd) × List Quad)
  | pts, [] => .ok (pts, [], [])
  | pts, s :: ss =>
    match pts[s.a]?, pts[s.b]?, pts[s.c]?, pts[s.d]? with
    | some p0, some p1, some p2, some p3 =>
      let pmi := pts.length
      (eofs edges off ⟨s.a, s.b⟩).bind fun e0 =>
      (eofs edges off ⟨s.a, s.c⟩).bind fun e1 =>
      (eofs edges off ⟨s.b, s.d⟩).bind fun e2 =>
      (eofs edges off ⟨s.c, s.d⟩).bind fun e3 =>
      (splitQuads edges off (pts ++ [centre p0 p1 p2 p3]) ss).bind fun r =>
      .ok (r.1, [(⟨e0, pmi⟩, Bd.inner), (⟨e1, pmi⟩, Bd.inner), (⟨e2, pmi⟩, Bd.inner), (⟨e3, pmi⟩, Bd.inner)] ++ r.2.1,
        [⟨s.a, e0, e1, pmi⟩, ⟨s.b, e2, e0, pmi⟩, ⟨s.c, e1, e3, pmi⟩, ⟨s.d, e3, e2, pmi⟩] ++ r.2.2)
    | _, _, _, _ => .ub "assert(ptids[0] < storage->points.size())"

/-- `simple_mesher<cartesian_mesh<T,2>>::refine`, `mesh/meshgen.hpp:603-722`. -/
def refine (m : Mesh K) : Outcome (Mesh K) :=
  let off := m.points.length
  (breakEdges m.points m.edges).bind fun r =>
  (splitQuads (m.edges.map Prod.fst) off r.1 m.quads).bind fun s =>
  .ok { points := s.1
        edges := Sort.sortBy (fun x y => decide (x.1 < y.1)) (r.2 ++ s.2.1)
        quads := Sort.sortBy (fun x y => decide (x < y)) s.2.2 }

/-- `k` calls of `refine`. -/
def refineN : Nat → Mesh K → Outcome (Mesh K)
  | 0, m => .ok m
  | k + 1, m => (refine m).bind (refineN k)

/-- The mesh built by the constructor, `mesh/meshgen.hpp:542-600`. -/
def initial : Mesh K :=
  { points := [(0, 0), (1 / 2, 0), (1, 0), (0, 1 / 2), (1 / 2, 1 / 2), (1, 1 / 2), (0, 1), (1 / 2, 1), (1, 1)]
    edges := [(⟨0, 1⟩, ⟨0, true⟩), (⟨0, 3⟩, ⟨3, true⟩), (⟨1, 2⟩, ⟨0, true⟩), (⟨1, 4⟩, Bd.inner),
      (⟨2, 5⟩, ⟨1, true⟩), (⟨3, 4⟩, Bd.inner), (⟨3, 6⟩, ⟨3, true⟩), (⟨4, 5⟩, Bd.inner), (⟨4, 7⟩, Bd.inner),
      (⟨5, 8⟩, ⟨1, true⟩), (⟨6, 7⟩, ⟨2, true⟩), (⟨7, 8⟩, ⟨2, true⟩)]
    quads := [⟨0, 1, 3, 4⟩, ⟨1, 2, 4, 5⟩, ⟨3, 4, 6, 7⟩, ⟨4, 5, 7, 8⟩] }

end
end Verif.QuadRefine
