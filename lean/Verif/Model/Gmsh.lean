import Verif.Model.MeshFile
/-!
Meshes generated by GMSH: `loaders/loader_gmsh.hpp`.

What the functions of the GMSH API return is an argument (`Model`); geometry files GMSH cannot open or mesh end in its
own exceptions and are left out. `INVALID_OFS` is `none`. Tags are numbers one can allocate a table for. `read_mesh` and
`populate_mesh` return `true` unless they throw. Meshes are loaded into a newly constructed mesh object.
-/
namespace Verif.Gmsh
open Verif.Lookup Verif.MeshTopo Verif.MeshFile

/-- The elements of one type of an entity, as `getElementsByType` returns them: tags of the elements and, one element
after the other, the tags of their nodes. -/
structure Block where
  type : Nat
  elemTags : List Nat
  nodeTags : List Nat

/-- An entity with cells: its tag and its elements by type (`getElementTypes`). -/
structure Region where
  tag : Nat
  blocks : List Block

/-- Node tags of the edges and of the faces with three and four nodes of the elements of one type:
`getElementEdgeNodes`, `getElementFaceNodes`. -/
structure Sides where
  edges : List Nat
  tri : List Nat
  quad : List Nat

/-- An entity of the dimension of faces: its tag and the sides of its elements by type. -/
structure Patch where
  tag : Nat
  types : List Sides

/-- What GMSH returns: tags and coordinates (three per node) of the nodes, and the entities. -/
structure Model (K : Type) where
  nodeTags : List Nat
  coords : List K
  regions : List Region
  patches : List Patch

/-- Run `f` on every element. -/
def traverse {α β : Type} (f : α → Outcome β) : List α → Outcome (List β)
  | [] => .ok []
  | x :: xs => (f x).bind fun y => (traverse f xs).bind fun ys => .ok (y :: ys)

/-- `v[i]`. -/
def read {α : Type} (v : List α) (i : Nat) : Outcome α :=
  match v[i]? with
  | some x => .ok x
  | none => .ub "index out of range"

/-- The points, `loader_gmsh.hpp:59-67,296-302,579-587`: the first `dim` coordinates of every node. -/
def points {K : Type} (dim : Nat) (g : Model K) : Outcome (List (List K)) :=
  traverse (fun i => traverse (fun j => read g.coords (3 * i + j)) (List.range dim)) (List.range g.nodeTags.length)

/-- `node_tag2ofs`, `loader_gmsh.hpp:53-57,69-75`. -/
def tagTable (tags : List Nat) : List (Option Nat) :=
  tags.zipIdx.foldl (fun t x => t.set x.1 (some x.2)) (List.replicate (tags.foldl (fun m t => max m (t + 1)) 0) none)

/-- The offset of the node whose tag is at `pos`, e.g. `loader_gmsh.hpp:99-102`. -/
def corner (tab : List (Option Nat)) (tags : List Nat) (pos : Nat) : Outcome Nat :=
  (read tags pos).bind fun t =>
    match tab[t]? with
    | none => .ub "assert(tag < node_tag2ofs.size())"
    | some none => .ub "assert(ofs != INVALID_OFS)"
    | some (some i) => .ok i

/-- `k` offsets from `base` on. -/
def corners (tab : List (Option Nat)) (tags : List Nat) (k base : Nat) : Outcome (List Nat) :=
  traverse (fun j => corner tab tags (base + j)) (List.range k)

/-- The first `n` nodes of every element of a block, `loader_gmsh.hpp:92-122,331-356,602-645`. -/
def elements (tab : List (Option Nat)) (n : Nat) (b : Block) : Outcome (List (List Nat)) :=
  if b.elemTags.length = 0 then .ub "division by zero"
  else
    let npe := b.nodeTags.length / b.elemTags.length
    if b.elemTags.length * npe ≠ b.nodeTags.length then .ub "assert(elemTags.size() * nodesPerElem == ..)"
    else traverse (fun i => corners tab b.nodeTags n (npe * i)) (List.range b.elemTags.length)

/-! ### Simplices -/

/-- The parts that differ between triangles and tetrahedra: the number of corners of a cell and of a face, the faces
pushed back for a cell, `faces(msh, cl)`, and the sides asked for. -/
structure Shape where
  nc : Nat
  nf : Nat
  pushed : List Nat → List (List Nat)
  facesOf : List Nat → List (List Nat)
  sides : Sides → List Nat

/-- The edges of a triangle, `loader_gmsh.hpp:358-360`. -/
def pushedEdges (p : List Nat) : List (List Nat) := [[0, 1], [0, 2], [1, 2]].map fun ix => simplex (pick p ix)

/-- `faces(msh, cl)` of a triangle, `geometry/geometry_simplicial.hpp:166-184`. -/
def triFaces (p : List Nat) : List (List Nat) := [[0, 1], [1, 2], [0, 2]].map fun ix => simplex (pick p ix)

/-- `gmsh_geometry_loader<simplicial_mesh<T,2>>`. -/
def tri : Shape := ⟨3, 2, pushedEdges, triFaces, Sides.edges⟩

/-- `gmsh_geometry_loader<simplicial_mesh<T,3>>`; the faces, `loader_gmsh.hpp:131-134`, are those of Netgen files. -/
def tet : Shape := ⟨4, 3, tetSurfaces, tetFaces, Sides.tri⟩

/-- The cells of a region with their subdomain descriptors `(id, tag)`, `loader_gmsh.hpp:82-141,321-366`: the identifier
is the number of the element within its block. -/
def regionCells (tab : List (Option Nat)) (S : Shape) (r : Region) : Outcome (List (List Nat × Nat × Nat)) :=
  (traverse (fun b => (elements tab S.nc b).bind fun es =>
    .ok (es.zipIdx.map fun e => (e.1, e.2, r.tag))) r.blocks).bind fun l => .ok l.flatten

/-- Search for a face and set its descriptor, `loader_gmsh.hpp:195-203,412-420`. -/
def setSide (faces : List (List Nat)) (d : BDesc) (f : List Nat) (info : List BDesc) : Outcome (List BDesc) :=
  let i := lowerBound faces f
  match faces[i]? with
  | none => .throws "Face not found"
  | some y => if y = f then .ok (info.set i d) else .throws "Face not found"

/-- The loop over the sides of an element type, `loader_gmsh.hpp:171-204,395-422`. -/
def sideLoop (tab : List (Option Nat)) (faces : List (List Nat)) (d : BDesc) (k : Nat) (tags : List Nat) :
    List Nat → List BDesc → Outcome (List BDesc)
  | [], info => .ok info
  | i :: is, info => (corners tab tags k (k * i)).bind fun f =>
      (setSide faces d (simplex f) info).bind fun info => sideLoop tab faces d k tags is info

/-- The number of turns of `for (i = 0; i < n; i += k)`. -/
def turns (n k : Nat) : Nat := (n + k - 1) / k

/-- `detect_boundary_faces`, `loader_gmsh.hpp:155-209`, and `detect_boundary_edges`, `loader_gmsh.hpp:380-427`; `b` is
`b_id`. -/
def patchLoop (tab : List (Option Nat)) (S : Shape) (faces : List (List Nat)) :
    List Patch → Nat → List BDesc → Outcome (List BDesc)
  | [], _, info => .ok info
  | p :: ps, b, info =>
    match p.types with
    | [s] => (sideLoop tab faces (BDesc.mk3 b p.tag true) S.nf (S.sides s)
        (List.range (turns (S.sides s).length S.nf)) info).bind fun info => patchLoop tab S faces ps (b + 1) info
    | _ => .ub "assert(elemTypes.size() == 1)"

/-- The result of `std::sort` of cells with their descriptors, `loader_gmsh.hpp:144-152,369-377`: the order of equal
cells is not determined. -/
def IsSort (srt : List (List Nat × Nat × Nat) → List (List Nat × Nat × Nat)) : Prop :=
  ∀ l, (srt l).Perm l ∧ (srt l).Pairwise fun x y => ¬ y.1 < x.1

/-- Cells, in the order of the entities and then sorted, faces and boundary descriptors. -/
structure Core where
  raw : List (List Nat)
  cells : List (List Nat × Nat × Nat)
  faces : List (List Nat)
  info : List BDesc

/-- `gmsh_get_elements`, `detect_boundary_faces` and `mark_internal_faces`, `loader_gmsh.hpp:78-209,261,310-427,479`. -/
def core {K : Type} (srt : List (List Nat × Nat × Nat) → List (List Nat × Nat × Nat)) (S : Shape) (g : Model K) :
    Outcome Core :=
  let tab := tagTable g.nodeTags
  (traverse (regionCells tab S) g.regions).bind fun l =>
    let cells := l.flatten
    let faces := MeshFile.sortUniq ((cells.map Prod.fst).flatMap S.pushed)
    let sorted := srt (cells.map fun c => (simplex c.1, c.2))
    (patchLoop tab S faces g.patches 0 (List.replicate faces.length BDesc.default)).bind fun info =>
    (Neighbours.markInternal ⟨sorted.map Prod.fst, faces, S.facesOf, info⟩).bind fun info =>
    .ok ⟨cells.map Prod.fst, sorted, faces, info⟩

/-- The containers of a mesh; subdomain descriptors are pairs of `id` and `tag`. -/
structure Loaded (K : Type) where
  points : List (List K)
  nodes : List (List Nat)
  edges : List (List Nat)
  surfaces : List (List Nat)
  volumes : List (List Nat)
  boundary : List BDesc
  subdomains : List (Nat × Nat)
  deriving DecidableEq

/-- `read_mesh` and `populate_mesh` for triangles, `loader_gmsh.hpp:434-482`. -/
def loadTri {K : Type} (srt : List (List Nat × Nat × Nat) → List (List Nat × Nat × Nat)) (g : Model K) :
    Outcome (Loaded K) :=
  (points 2 g).bind fun ps => (core srt tri g).bind fun c =>
    .ok ⟨ps, mkNodes g.nodeTags.length, c.faces, c.cells.map Prod.fst, [], c.info, c.cells.map Prod.snd⟩

/-- `read_mesh` and `populate_mesh` for tetrahedra, `loader_gmsh.hpp:215-264`; the edges of a tetrahedron,
`loader_gmsh.hpp:124-129`, are those of Netgen files. -/
def loadTet {K : Type} (srt : List (List Nat × Nat × Nat) → List (List Nat × Nat × Nat)) (g : Model K) :
    Outcome (Loaded K) :=
  (points 3 g).bind fun ps => (core srt tet g).bind fun c =>
    .ok ⟨ps, mkNodes g.nodeTags.length, MeshFile.sortUniq (c.raw.flatMap tetEdges), c.faces, c.cells.map Prod.fst, c.info,
      c.cells.map Prod.snd⟩

end Verif.Gmsh
