import Verif.Model.Hierarchy
import Verif.Model.Locate
/-!
Point location (`Verif.Model.Locate`) in a hierarchy that was built by `build_hierarchy`
(`Verif.Model.Hierarchy`).

Simplification: exact arithmetic. The inside test has no value on a degenerate triangle; `hier` reads it as
`false` there, and the theorems exclude degenerate triangles.
-/
namespace Verif.HierLocate
open Verif.TriRefine

variable {K : Type} [Field K]

/-- The triangles of a mesh as triples of points (`points(msh, cl)`, `geometry/geometry_simplicial.hpp`),
in the order of the cells. -/
def cells (m : Mesh K) : List (Locate.Tri K) :=
  m.tris.map fun t => (m.points.getD t.a (0, 0), m.points.getD t.b (0, 0), m.points.getD t.c (0, 0))

/-- The members of the hierarchy after `build_hierarchy`, `mesh/mesh_hierarchy.hpp:385-407`. -/
def hier [LinearOrder K] (ms : List (Mesh K)) (cs : List (List (List Nat))) :
    Locate.Hier (Locate.Tri K) (Locate.Pt K) :=
  ⟨ms.map cells, cs, fun t p => (Locate.isInside t p).getD false⟩

end Verif.HierLocate
