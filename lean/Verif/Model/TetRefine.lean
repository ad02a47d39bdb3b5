import Verif.Model.TriRefine
/-!
Uniform refinement of tetrahedral meshes: `simple_mesher<tetrahedral_mesh>` (`mesh/meshgen.hpp:256-525`).

Simplifications: the containers `points` and `nodes` always have the same length, so only `points` is kept;
`surfaces` and `boundary_info` are kept as one list of pairs; coordinates are elements of a field; a failed
`assert` is undefined behaviour. `std::sort` does not fix the order of equal elements, which matters for
`new_surfaces` (compared by their surface only), so that sort is a parameter `srt` constrained by `IsSort`.
-/
namespace Verif.TetRefine
open TriRefine

/-- A tetrahedron: four point identifiers, in increasing order after construction. -/
structure Tet where
  a : Nat
  b : Nat
  c : Nat
  d : Nat
  deriving DecidableEq, Repr

/-- `operator<` of tetrahedra (comparison of `std::array`), `geometry/element_simplicial.hpp:67-70`. -/
instance : LT Tet := ⟨fun x y => x.a < y.a ∨ (x.a = y.a ∧ (x.b < y.b ∨ (x.b = y.b ∧
  (x.c < y.c ∨ (x.c = y.c ∧ x.d < y.d)))))⟩
instance : DecidableLT Tet := fun x y => inferInstanceAs (Decidable (x.a < y.a ∨ (x.a = y.a ∧ (x.b < y.b ∨
  (x.b = y.b ∧ (x.c < y.c ∨ (x.c = y.c ∧ x.d < y.d)))))))

/-- `volume_type({p, q, r, s})`: the constructor sorts, `geometry/element_simplicial.hpp:57-61`. -/
def mkTet (p q r s : Nat) : Tet :=
  match Sort.sortBy (fun x y => decide (x < y)) [p, q, r, s] with
  | [w, x, y, z] => ⟨w, x, y, z⟩
  | _ => ⟨p, q, r, s⟩

/-- What `make_tetra` appends to `edges`, `new_surfaces` and `new_volumes`. -/
structure Piece where
  edges : List Edge
  surfaces : List (Tri × Bd)
  vols : List Tet
  deriving DecidableEq

/-- Appending. -/
def Piece.append (x y : Piece) : Piece := ⟨x.edges ++ y.edges, x.surfaces ++ y.surfaces, x.vols ++ y.vols⟩

/-- `make_tetra`, `mesh/meshgen.hpp:275-295`. -/
def makeTetra (p0 p1 p2 p3 : Nat) (b0 b1 b2 b3 : Bd) : Piece :=
  { edges := [mkEdge p0 p1, mkEdge p0 p2, mkEdge p0 p3, mkEdge p1 p2, mkEdge p1 p3, mkEdge p2 p3]
    surfaces := [(mkTri p0 p1 p2, b0), (mkTri p0 p1 p3, b1), (mkTri p0 p2 p3, b2), (mkTri p1 p2 p3, b3)]
    vols := [mkTet p0 p1 p2 p3] }

/-- Several calls of `make_tetra`. -/
def Piece.concat (l : List Piece) : Piece := l.foldr Piece.append ⟨[], [], []⟩

/-- Storage of a tetrahedral mesh. -/
structure Mesh (K : Type) where
  points : List (K × K × K)
  edges : List Edge
  surfaces : List (Tri × Bd)
  vols : List Tet
  deriving DecidableEq

/-- `comp_sort` and `comp_uniq`, `mesh/meshgen.hpp:345-350,479-484`, look at the surface only. -/
def IsSort (srt : List (Tri × Bd) → List (Tri × Bd)) : Prop :=
  ∀ l, (srt l).Perm l ∧ (srt l).Pairwise fun x y => ¬ y.1 < x.1

/-- `std::unique` with `comp_uniq`: of equal neighbours the first is kept. -/
def uniqueFrom (last : Tri) : List (Tri × Bd) → List (Tri × Bd)
  | [] => []
  | y :: ys => if last = y.1 then uniqueFrom last ys else y :: uniqueFrom y.1 ys

/-- See `uniqueFrom`. -/
def unique : List (Tri × Bd) → List (Tri × Bd)
  | [] => []
  | x :: xs => x :: uniqueFrom x.1 xs

/-- `std::sort` and `std::unique` of the edges. -/
def sortEdges (l : List Edge) : List Edge := Lookup.unique (Sort.sortBy (fun x y => decide (x < y)) l)

/-- The lambda `ssearch` and the read of `boundary_info`, `mesh/meshgen.hpp:440-459`. -/
def descriptor (surfaces : List (Tri × Bd)) (s : Tri) : Outcome Bd :=
  match surfaces[Lookup.lowerBound (surfaces.map Prod.fst) s]? with
  | some x => if s = x.1 then .ok x.2 else .throws "Surface not found. This is a bug."
  | none => .throws "Surface not found. This is a bug."

/-- The calls of `make_tetra` for one volume, `mesh/meshgen.hpp:475-482`. -/
def children (q0 q1 q2 q3 p4 p5 p6 p7 p8 p9 : Nat) (b0 b1 b2 b3 : Bd) : List Piece :=
  let bn := Bd.inner
  [makeTetra q0 p4 p6 p7 b0 b1 b2 bn,
   makeTetra p4 q1 p5 p9 b0 b1 bn b3,
   makeTetra p6 p5 q2 p8 b0 bn b2 b3,
   makeTetra p7 p9 p8 q3 bn b1 b2 b3,
   makeTetra p4 p6 p7 p9 bn bn b1 bn,
   makeTetra p4 p9 p5 p6 bn bn b0 bn,
   makeTetra p6 p7 p9 p8 bn b2 bn bn,
   makeTetra p6 p8 p9 p5 bn bn bn b3]

/-- One turn of the loop over the volumes, `mesh/meshgen.hpp:426-484`. -/
def splitTet (edges : List Edge) (off : Nat) (surfaces : List (Tri × Bd)) (t : Tet) : Outcome Piece :=
  (descriptor surfaces (mkTri t.a t.b t.c)).bind fun b0 =>
  (descriptor surfaces (mkTri t.a t.b t.d)).bind fun b1 =>
  (descriptor surfaces (mkTri t.a t.c t.d)).bind fun b2 =>
  (descriptor surfaces (mkTri t.b t.c t.d)).bind fun b3 =>
  (eofs edges off (mkEdge t.a t.b)).bind fun p4 =>
  (eofs edges off (mkEdge t.b t.c)).bind fun p5 =>
  (eofs edges off (mkEdge t.a t.c)).bind fun p6 =>
  (eofs edges off (mkEdge t.a t.d)).bind fun p7 =>
  (eofs edges off (mkEdge t.c t.d)).bind fun p8 =>
  (eofs edges off (mkEdge t.b t.d)).bind fun p9 =>
  .ok (Piece.concat (children t.a t.b t.c t.d p4 p5 p6 p7 p8 p9 b0 b1 b2 b3))

/-- The loop over the volumes. -/
def splitTets (edges : List Edge) (off : Nat) (surfaces : List (Tri × Bd)) : List Tet → Outcome Piece
  | [] => .ok ⟨[], [], []⟩
  | t :: ts =>
    (splitTet edges off surfaces t).bind fun r =>
    (splitTets edges off surfaces ts).bind fun rs => .ok (r.append rs)

section
variable {K : Type} [Field K]

/-- `(p0 + p1)/2.`, `mesh/meshgen.hpp:414`. -/
def midpoint (p q : K × K × K) : K × K × K := ((p.1 + q.1) / 2, (p.2.1 + q.2.1) / 2, (p.2.2 + q.2.2) / 2)

/-- The loop over the edges, `mesh/meshgen.hpp:404-424`. -/
def breakEdges : List (K × K × K) → List Edge → Outcome (List (K × K × K))
  | pts, [] => .ok pts
  | pts, e :: es =>
    match pts[e.a]?, pts[e.b]? with
    | some p, some q => breakEdges (pts ++ [midpoint p q]) es
    | _, _ => .ub "assert(ptids[0] < storage->points.size())"

/-- `refine`, `mesh/meshgen.hpp:384-525`, with the assertions at its end. -/
def refine (srt : List (Tri × Bd) → List (Tri × Bd)) (m : Mesh K) : Outcome (Mesh K) :=
  let off := m.points.length
  let nb := m.surfaces.countP fun x => x.2.bnd
  (breakEdges m.points m.edges).bind fun pts =>
  (splitTets m.edges off m.surfaces m.vols).bind fun r =>
  let ss := unique (srt r.surfaces)
  if r.vols.length = m.vols.length * 8 ∧ ss.length = 16 * m.vols.length + 2 * nb then
    .ok { points := pts
          edges := sortEdges r.edges
          surfaces := ss
          vols := Sort.sortBy (fun x y => decide (x < y)) r.vols }
  else .ub "assert(storage->surfaces.size() == expected_surfaces)"

/-- The calls of `make_tetra` in the constructor, `mesh/meshgen.hpp:338-343`. -/
def cube : Piece :=
  let bn : Bd := ⟨0, false⟩
  let b (i : Nat) : Bd := ⟨i, true⟩
  Piece.concat [makeTetra 0 1 3 7 (b 0) bn (b 2) bn, makeTetra 0 1 4 7 (b 1) bn (b 2) bn,
    makeTetra 1 2 3 7 (b 0) bn bn (b 4), makeTetra 1 2 6 7 (b 5) bn bn (b 4),
    makeTetra 1 4 5 7 (b 1) bn bn (b 3), makeTetra 1 5 6 7 (b 5) bn bn (b 3)]

/-- The constructor, `mesh/meshgen.hpp:299-381`. -/
def init (srt : List (Tri × Bd) → List (Tri × Bd)) : Outcome (Mesh K) :=
  let ss := unique (srt cube.surfaces)
  if ss.length = 18 ∧ cube.vols.length = 6 then
    .ok { points := [(0, 0, 0), (1, 0, 0), (1, 1, 0), (0, 1, 0), (0, 0, 1), (1, 0, 1), (1, 1, 1), (0, 1, 1)]
          edges := sortEdges cube.edges
          surfaces := ss
          vols := cube.vols }
  else .ub "assert(storage->surfaces.size() == 18)"

/-- `k` calls of `refine` after construction. -/
def refineN (srt : List (Tri × Bd) → List (Tri × Bd)) : Nat → Mesh K → Outcome (Mesh K)
  | 0, m => .ok m
  | k + 1, m => (refine srt m).bind (refineN srt k)

end
end Verif.TetRefine
