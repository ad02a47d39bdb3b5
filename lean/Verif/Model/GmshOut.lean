import Verif.Model.Outcome
import Verif.Spec.Points
import Mathlib.Analysis.SpecialFunctions.Complex.Arg
/-!
Meshes for GMSH: `convertMesh` of a mesh and of a `PostMesh`, `output/gmshConvertMesh.hpp:42-473`, with `convertPoint`,
`init_coor` and `cell_nodes` of `output/gmshDisk.hpp:41-54` and `199-258`.

The library of `Gmesh` is not part of the repository. It is taken for a list of nodes, of which `getNode(i)` is the one
at position `i`, and a list of elements to which every `add…` appends, whose length is `getNumberofElements()`. Physical
and elementary entities (always zero) are left out. Coordinates are exact reals and `atan2` is the argument of a complex
number. Reading past the end of a vector and failing assertions are undefined.
-/
noncomputable section
namespace Verif.GmshOut
open Verif Verif.Spec

/-- `gmsh::Node`: the number and the coordinates. -/
structure GNode where
  index : Nat
  coor : P3 ℝ

/-- The kinds of elements. -/
inductive Kind where
  | vertex
  | edge
  | triangle
  | quadrangle
  | tetrahedron
  | hexahedron
deriving DecidableEq

/-- An element: kind, number and numbers of its nodes. -/
structure Element where
  kind : Kind
  num : Nat
  nodes : List Nat
deriving DecidableEq

/-- `gmsh::Gmesh`. -/
structure Gmesh where
  nodes : List GNode
  elems : List Element

/-- `addEdge`, `addTriangle` and so on of an element with the number `getNumberofElements() + 1`. -/
def Gmesh.add (g : Gmesh) (k : Kind) (nodes : List Nat) : Gmesh :=
  { g with elems := g.elems ++ [⟨k, g.elems.length + 1, nodes⟩] }

/-- The mean of the coordinates, lines 47-57. -/
def mean (l : List GNode) : P2 ℝ :=
  ⟨(l.map fun n => n.coor.x).sum / l.length, (l.map fun n => n.coor.y).sum / l.length⟩

/-- `atan2` of the position seen from the mean, lines 59-66. -/
def angle (o : P2 ℝ) (p : P3 ℝ) : ℝ := Complex.arg ⟨p.x - o.x, p.y - o.y⟩

open Classical in
/-- The inner loop of lines 78-83: `j` is the position of the head of the list, `vmin` and `imin` are as in the code. -/
def findMin (ang : Nat → ℝ) : List Nat → (j : Nat) → (vmin : ℝ) → (imin : Nat) → Nat
  | [], _, _, imin => imin
  | r :: rs, j, vmin, imin =>
    if ang r < vmin then findMin ang rs (j + 1) (ang r) j else findMin ang rs (j + 1) vmin imin

/-- The outer loop of lines 74-88 on the rest of `ret`: the position of the smallest angle (zero for the first) and a
swap; `m` bounds the number of passes. -/
def selSort (ang : Nat → ℝ) : Nat → List Nat → List Nat
  | 0, l => l
  | _, [] => []
  | m + 1, r :: rs =>
    match findMin ang rs 1 (ang r) 0 with
    | 0 => r :: selSort ang m rs
    | k + 1 => rs.getD k 0 :: selSort ang m (rs.set k r)

/-- `sort_nodes_2D`, lines 42-91. It is never called here with an empty list, for which the bound of the loop would wrap
around. -/
def sortNodes2D (l : List GNode) : List Nat :=
  let o := mean l
  selSort (fun i => angle o (l.getD i ⟨0, ⟨0, 0, 0⟩⟩).coor) l.length (List.range l.length)

/-- The number compared in `aligned`, line 105. -/
def cross2 (n0 n1 n2 : P3 ℝ) : ℝ := (n1.x - n0.x) * (n2.y - n0.y) - (n1.y - n0.y) * (n2.x - n0.x)

open Classical in
/-- `aligned`, lines 93-109. -/
def aligned (n0 n1 n2 : GNode) : Bool := decide (cross2 n0.coor n1.coor n2.coor < 1 / 10 ^ 8)

/-- `volume_signed`, lines 117-141. -/
def volumeSigned (v0 v1 v2 v3 : P3 ℝ) : ℝ :=
  (v3.x - v0.x) * ((v1.y - v0.y) * (v2.z - v0.z) - (v1.z - v0.z) * (v2.y - v0.y)) +
  (v3.y - v0.y) * (-((v1.x - v0.x) * (v2.z - v0.z) - (v1.z - v0.z) * (v2.x - v0.x))) +
  (v3.z - v0.z) * ((v1.x - v0.x) * (v2.y - v0.y) - (v1.y - v0.y) * (v2.x - v0.x))

open Classical in
/-- `sort_nodes_3D`, lines 111-157. -/
def sortNodes3D (l : List GNode) : List Nat :=
  match l with
  | [a, b, c, d] => if 0 < volumeSigned a.coor b.coor c.coor d.coor then [0, 1, 2, 3] else [0, 3, 2, 1]
  | _ => if l.length = 8 then [0, 1, 3, 2, 4, 5, 7, 6] else List.range l.length

/-- The nodes in the order found. -/
def pick (l : List GNode) (s : List Nat) : List GNode := s.map fun i => l.getD i ⟨0, ⟨0, 0, 0⟩⟩

/-- The triangles of a polygon around its first node, lines 191-202. -/
def addFan (n0 : GNode) : List GNode → Gmesh → Gmesh
  | a :: b :: rest, g =>
    addFan n0 (b :: rest) (if aligned n0 a b then g else g.add .triangle [n0.index, a.index, b.index])
  | _, g => g

/-- `add_element`, lines 159-222. -/
def addElement (dim : Nat) (g : Gmesh) (l : List GNode) : Outcome Gmesh :=
  if dim = 1 then
    if l.length = 2 then .ok (g.add .edge (l.map GNode.index)) else .ub "assertion list_nodes.size() == 2"
  else if dim = 2 then
    if l.length < 3 then .ub "assertion list_nodes.size() >= 3"
    else
      let s := pick l (sortNodes2D l)
      if l.length = 3 then .ok (g.add .triangle (s.map GNode.index))
      else if l.length = 4 then .ok (g.add .quadrangle (s.map GNode.index))
      else
        match s with
        | n0 :: rest => .ok (addFan n0 rest g)
        | [] => .ok g
  else if dim = 3 then
    if l.length < 4 then .ub "assertion list_nodes.size() >= 4"
    else
      let s := pick l (sortNodes3D l)
      if l.length = 4 then .ok (g.add .tetrahedron (s.map GNode.index))
      else if l.length = 8 then .ok (g.add .hexahedron (s.map GNode.index))
      else .ok g
  else .ub "assertion false"

/-- What is read of a mesh: the points with coordinates filled up with zeros (`convertPoint`), the points of the edges and
those of the cells (`cell_nodes`). -/
structure Mesh where
  dim : Nat
  pts : List (P3 ℝ)
  edges : List (List Nat)
  cells : List (List Nat)

/-- The nodes and vertices, lines 236-243: numbers start at one. -/
def addPoints : List (P3 ℝ) → Gmesh → Gmesh
  | [], g => g
  | p :: ps, g => addPoints ps (Gmesh.add { g with nodes := g.nodes ++ [⟨g.nodes.length + 1, p⟩] } .vertex [g.nodes.length + 1])

/-- The edges, lines 246-260. -/
def addEdges : List (List Nat) → Gmesh → Outcome Gmesh
  | [], g => .ok g
  | e :: es, g =>
    if e.length = 2 then addEdges es (g.add .edge (e.map (· + 1))) else .ub "assertion list_nodes.size() == 2"

/-- The cells, lines 262-270. -/
def addCells (dim : Nat) : List (List Nat) → Gmesh → Outcome Gmesh
  | [], g => .ok g
  | c :: cs, g =>
    if c.all fun i => decide (i < g.nodes.length) then
      (addElement dim g (c.map fun i => g.nodes.getD i ⟨0, ⟨0, 0, 0⟩⟩)).bind (addCells dim cs)
    else .ub "node that does not exist"

/-- `convertMesh` of a mesh, lines 224-273. -/
def convertMesh (m : Mesh) : Outcome Gmesh :=
  (addEdges m.edges (addPoints m.pts ⟨[], []⟩)).bind (addCells m.dim m.cells)

/-- One triangle of a `PostMesh`, lines 365-391: numbers in the cell are those of `sort_nodes_2D`; an element that is no
triangle is left out, since the exception of line 389 is constructed but not thrown. For an element without points the
loop of `sort_nodes_2D` wraps around. -/
def postTriangle (pts : List (P3 ℝ)) (g : Gmesh) (c : List Nat) : Outcome Gmesh :=
  let l := c.zipIdx.map fun e => (⟨e.2 + 1, pts.getD e.1 ⟨0, 0, 0⟩⟩ : GNode)
  if l.length = 0 then .ub "read of ret[0]"
  else .ok <| if l.length = 3 then g.add .triangle ((sortNodes2D l).map fun i => c.getD i 0 + 1) else g

/-- One tetrahedron of a `PostMesh`, lines 441-467. -/
def postTetrahedron (pts : List (P3 ℝ)) (g : Gmesh) (c : List Nat) : Outcome Gmesh :=
  let l := c.zipIdx.map fun e => (⟨e.2 + 1, pts.getD e.1 ⟨0, 0, 0⟩⟩ : GNode)
  .ok <| if l.length = 4 then g.add .tetrahedron ((sortNodes3D l).map fun i => c.getD i 0 + 1) else g

/-- The surfaces or volumes of a `PostMesh`; points are read before anything else. -/
def postCells (add : Gmesh → List Nat → Outcome Gmesh) (n : Nat) : List (List Nat) → Gmesh → Outcome Gmesh
  | [], g => .ok g
  | c :: cs, g =>
    if c.all fun i => decide (i < n) then (add g c).bind (postCells add n cs) else .ub "point that does not exist"

/-- `convertMesh` of a `PostMesh`, lines 275-318, 320-395 and 397-471; a mesh of a line has only its edges. -/
def convertPost (m : Mesh) : Outcome Gmesh :=
  (addEdges m.edges (addPoints m.pts ⟨[], []⟩)).bind fun g =>
    if m.dim = 2 then postCells (postTriangle m.pts) m.pts.length m.cells g
    else if m.dim = 3 then postCells (postTetrahedron m.pts) m.pts.length m.cells g
    else .ok g

end Verif.GmshOut
