import Verif.Model.Hierarchy
import Verif.Model.SingleMesh
/-!
The per-face and per-cell descriptors of a mesh: `boundary_info` and `subdomain_info` of the backend storage,
and the queries that read them.

Simplification: only the lengths of the four containers are kept. A failing `assert` is undefined behaviour.
-/
namespace Verif.MeshInfo

/-- Lengths of the containers of faces, cells, `boundary_info` and `subdomain_info`. -/
structure Sizes where
  faces : Nat
  cells : Nat
  boundary : Nat
  subdomain : Nat
  deriving DecidableEq, Repr

/-- `domain_info(cl)`, `mesh/mesh.hpp:583-588`, for the cell with number `cid`; the result is the index read. -/
def domainInfo (s : Sizes) (cid : Nat) : Outcome Nat :=
  if s.subdomain ≠ s.cells then .ub "assert(subdomain_info.size() == cells_size())"
  else if cid < s.subdomain then .ok cid else .throws "out_of_range"

/-- `boundary_info(fc)`, `mesh/mesh.hpp:590-595`, also the reads of `is_boundary`, `mesh/mesh.hpp:437-457`. -/
def boundaryInfo (s : Sizes) (fid : Nat) : Outcome Nat :=
  if s.boundary ≠ s.faces then .ub "assert(boundary_info.size() == faces_size())"
  else if fid < s.boundary then .ok fid else .throws "out_of_range"

variable {K : Type} [Field K]

/-- The triangle mesher: the descriptors of the edges are pushed together with the edges, those of the
triangles are resized, `mesh/meshgen.hpp:102-113,241-252`. -/
def ofMesher (m : TriRefine.Mesh K) : Sizes :=
  { faces := m.edges.length, cells := m.tris.length, boundary := m.edges.length, subdomain := m.tris.length }

/-- A refined level of the hierarchy: `convert_internal_to_simplicial`, `mesh/mesh_hierarchy.hpp:237-280`,
resizes `boundary_info` only. -/
def ofLevel (m : TriRefine.Mesh K) : Sizes :=
  { faces := m.edges.length, cells := m.tris.length, boundary := m.edges.length, subdomain := 0 }

/-- The segment, `mesh/meshgen.hpp:866-900`: `subdomain_info` is not touched. -/
def segment : Sizes := ⟨SingleMesh.segment.faces.length, 1, 2, 0⟩
/-- The triangle, `mesh/meshgen.hpp:902-932`: `boundary_info` is not touched. -/
def triangle : Sizes := ⟨SingleMesh.triangle.faces.length, 1, 0, 1⟩
/-- The tetrahedron, `mesh/meshgen.hpp:934-981`: `boundary_info` is not touched. -/
def tetra : Sizes := ⟨SingleMesh.tetra.faces.length, 1, 0, 1⟩
/-- The Cartesian quadrilateral, `mesh/meshgen.hpp:983-1017`: `boundary_info` is not touched. -/
def quad : Sizes := ⟨SingleMesh.quad.faces.length, 1, 0, 1⟩
/-- The Cartesian hexahedron, `mesh/meshgen.hpp:1020-1083`: `boundary_info` is not touched. -/
def hexa : Sizes := ⟨SingleMesh.hexa.faces.length, 1, 0, 1⟩
/-- The polygon, `mesh/meshgen.hpp:1086-1140`. -/
def polygon (n : Nat) : Option Sizes :=
  (SingleMesh.polygon n).map fun m => ⟨m.faces.length, 1, m.faces.length, 1⟩

end Verif.MeshInfo
