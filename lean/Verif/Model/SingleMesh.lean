import Verif.Model.Lookup
import Verif.Model.Sort
/-!
Meshes of one element: the `make_single_element_mesh` overloads of `mesh/meshgen.hpp:866-1140`, and the
face enumerators of `geometry/geometry_{generic,simplicial,hexahedral}.hpp`.

Simplifications: an element is the list of its point identifiers (generic cells: of its face
identifiers) and elements are compared lexicographically, as `std::array`'s `operator<` does; only the
container of faces and the cell are kept, the coordinates play no part.
-/
namespace Verif.SingleMesh

/-- A mesh of one cell: the container of faces, and the faces `faces(msh, cl)` reports for its cell. -/
structure Single where
  faces : List (List Nat)
  cellFaces : Outcome (List (List Nat))

/-- The constructor of simplicial elements copies the identifiers and sorts them,
`geometry/element_simplicial.hpp:55-60`; `generic_element` edges put the smaller node first. -/
def sorted (l : List Nat) : List Nat := Sort.sortBy (fun a b => decide (a < b)) l

/-- Faces of a segment are its two nodes, `geometry/geometry_generic.hpp` (1D `faces`). -/
def segmentFaces : List Nat → Outcome (List (List Nat))
  | [a, b] => .ok [[a], [b]]
  | _ => .ub "not a segment"

/-- Faces of a triangle, `geometry/geometry_simplicial.hpp:167-187`: the identifiers must be sorted
(`assert`). -/
def triangleFaces : List Nat → Outcome (List (List Nat))
  | [a, b, c] =>
    if a < b ∧ b < c then .ok [sorted [a, b], sorted [b, c], sorted [a, c]]
    else .ub "assert(ptids[0] < ptids[1] && ptids[1] < ptids[2])"
  | _ => .ub "not a triangle"

/-- Faces of a tetrahedron, `geometry/geometry_simplicial.hpp:140-158`. -/
def tetraFaces : List Nat → Outcome (List (List Nat))
  | [a, b, c, d] => .ok [sorted [b, c, d], sorted [a, c, d], sorted [a, b, d], sorted [a, b, c]]
  | _ => .ub "not a tetrahedron"

/-- Faces of a Cartesian quadrilateral, `geometry/geometry_hexahedral.hpp:141-160`: Cartesian elements
keep the identifiers in the order given. -/
def quadFaces : List Nat → Outcome (List (List Nat))
  | [a, b, c, d] => .ok [[a, b], [a, c], [b, d], [c, d]]
  | _ => .ub "not a quadrilateral"

/-- Faces of a Cartesian hexahedron, `geometry/geometry_hexahedral.hpp:168-189`. -/
def hexaFaces : List Nat → Outcome (List (List Nat))
  | [a, b, c, d, e, f, g, h] =>
    .ok [[a, c, g, e], [b, d, h, f], [a, b, d, c], [e, f, h, g], [a, e, f, b], [c, g, h, d]]
  | _ => .ub "not a hexahedron"

/-- Faces of a generic cell: the stored faces with the cell's face identifiers,
`geometry/geometry_generic.hpp:91-108` (`*std::next(faces_begin, id)`, unchecked). -/
def genericFaces (store : List (List Nat)) : List Nat → Outcome (List (List Nat))
  | [] => .ok []
  | i :: is =>
    match store[i]? with
    | none => .ub "std::next past the end"
    | some f =>
      match genericFaces store is with
      | .ok fs => .ok (f :: fs)
      | o => o

/-- The segment, `mesh/meshgen.hpp:866-900`. -/
def segment : Single := { faces := [[0], [1]], cellFaces := segmentFaces [0, 1] }

/-- The triangle, `mesh/meshgen.hpp:902-932`. -/
def triangle : Single :=
  { faces := [sorted [0, 1], sorted [0, 2], sorted [1, 2]], cellFaces := triangleFaces (sorted [0, 1, 2]) }

/-- The tetrahedron, `mesh/meshgen.hpp:934-981`; the surfaces are not sorted after the pushes. -/
def tetra : Single :=
  { faces := [sorted [0, 1, 2], sorted [0, 1, 3], sorted [1, 2, 3], sorted [0, 2, 3]]
    cellFaces := tetraFaces (sorted [0, 1, 2, 3]) }

/-- The Cartesian quadrilateral, `mesh/meshgen.hpp:983-1017`. -/
def quad : Single :=
  { faces := [[0, 1], [0, 3], [1, 2], [2, 3]], cellFaces := quadFaces [0, 1, 2, 3] }

/-- `std::sort` of the container of faces. -/
def sortFaces (l : List (List Nat)) : List (List Nat) := Sort.sortBy (fun a b => decide (a < b)) l

/-- The Cartesian hexahedron, `mesh/meshgen.hpp:1020-1083`. -/
def hexa : Single :=
  { faces := sortFaces [[0, 1, 3, 2], [4, 5, 7, 6], [0, 2, 6, 4], [1, 3, 7, 5], [0, 1, 5, 4],
      [2, 3, 7, 6]]
    cellFaces := hexaFaces [0, 1, 2, 3, 4, 5, 6, 7] }

/-- Edge pushed in turn `i` of the polygon loop, `mesh/meshgen.hpp:1118-1126`. -/
def polygonEdge (n i : Nat) : List Nat :=
  let n0 := i
  let n1 := (i + 1) % n
  if i + 1 = n then [n1, n0] else [n0, n1]

/-- The polygon with `n` faces, `mesh/meshgen.hpp:1086-1140`: the surface gets the edge identifiers
`0 … n-1`, then the edges are sorted. With fewer than three faces the mesh is left as it was. -/
def polygon (n : Nat) : Option Single :=
  if n < 3 then none
  else
    let faces := sortFaces ((List.range n).map (polygonEdge n))
    some { faces := faces, cellFaces := genericFaces faces (List.range n) }

end Verif.SingleMesh
