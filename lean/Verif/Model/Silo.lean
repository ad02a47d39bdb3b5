import Verif.Model.Outcome
import Verif.Model.Polyhedron
/-!
Meshes and variables in Silo files: `silo_database`, `output/silo.hpp:66-88` and `182-913`.

The Silo library is not part of the repository: a function of it is a call with what it is given, and `lib` tells for every
call whether it succeeds. Calls with a null handle fail. Numbers of points and faces are natural numbers that fit in `int`;
names, types of numbers and the deprecated variants with `silo_variable` are left out.
-/
namespace Verif.Silo
open Verif Verif.Spec

variable {K : Type} [Field K]

/-- `DBPutZonelist2` and `DBPutZonelist` (nodes, origin, sizes and numbers of the shapes), `DBPutPHZonelist` (numbers of
nodes of the faces, nodes, numbers of faces of the zones, faces), `DBPutUcdmesh` (coordinates, zones), `DBPutPointmesh`,
`DBPutUcdvar1` (name, values, whether nodal), `DBPutPointvar` and `DBPutDefvars` (name, parts). -/
inductive Call (K : Type) where
  | zonelist (nodelist : List Nat) (origin : Nat) (shapes : List (Nat × Nat))
  | phzonelist (nodecnts nodelist facecnts : List Nat) (facelist : List Int)
  | ucdmesh (coords : List (List K)) (nnodes nzones : Nat)
  | pointmesh (coords : List (List K)) (nels : Nat)
  | ucdvar (name : String) (values : List K) (nodal : Bool)
  | pointvar (values : List (List K)) (nels : Nat)
  | defvars (name : String) (parts : List String)

/-- The handle `m_siloDb` (whether it is set) and the library. -/
structure Db (K : Type) where
  isOpen : Bool
  lib : Call K → Bool

/-- A call of the library succeeds. -/
def Db.put (db : Db K) (c : Call K) : Bool := db.isOpen && db.lib c

/-- The checks at the beginning and after both calls that every `add_mesh` of cells has: what is returned and what was
called. -/
def Db.meshCalls (db : Db K) (zones mesh : Call K) : Bool × List (Call K) :=
  if !db.isOpen then (false, [])
  else if !db.put zones then (false, [zones])
  else if !db.put mesh then (false, [zones, mesh])
  else (true, [zones, mesh])

/-- Coordinates of points of the plane, for instance lines 234-241. -/
def coords2 (pts : List (P2 K)) : List (List K) := [pts.map P2.x, pts.map P2.y]

/-- Coordinates of points of space, for instance lines 296-307. -/
def coords3 (pts : List (P3 K)) : List (List K) := [pts.map P3.x, pts.map P3.y, pts.map P3.z]

/-- `add_mesh` of triangles, lines 225-285; the points of a cell as its `point_ids`. -/
def addTriangles (db : Db K) (pts : List (P2 K)) (cells : List (List Nat)) : Outcome (Bool × List (Call K)) :=
  if db.isOpen ∧ ¬ ∀ c ∈ cells, c.length = 3 then .ub "assertion ptids.size() == 3"
  else .ok (db.meshCalls (.zonelist (cells.flatMap fun c => c.map (· + 1)) 1 [(3, cells.length)])
    (.ucdmesh (coords2 pts) pts.length cells.length))

/-- `add_mesh` of tetrahedra, lines 287-349. -/
def addTetrahedra (db : Db K) (pts : List (P3 K)) (cells : List (List Nat)) : Outcome (Bool × List (Call K)) :=
  if db.isOpen ∧ ¬ ∀ c ∈ cells, c.length = 4 then .ub "assertion ptids.size() == 4"
  else .ok (db.meshCalls (.zonelist (cells.flatMap fun c => c.map (· + 1)) 1 [(4, cells.length)])
    (.ucdmesh (coords3 pts) pts.length cells.length))

/-- `add_mesh` of points, lines 351-382. -/
def addPointmesh (db : Db K) (pts : List (P2 K)) : Bool × List (Call K) :=
  if !db.isOpen then (false, []) else (db.put (.pointmesh (coords2 pts) pts.length), [.pointmesh (coords2 pts) pts.length])

/-- `add_mesh` of hexahedra, lines 384-452. -/
def addHexahedra (db : Db K) (pts : List (P3 K)) (cells : List (List Nat)) : Outcome (Bool × List (Call K)) :=
  if db.isOpen ∧ ¬ ∀ c ∈ cells, c.length = 8 then .ub "assertion ptids.size() == 8"
  else .ok (db.meshCalls
    (.zonelist (cells.flatMap fun c => [0, 1, 3, 2, 4, 5, 7, 6].map fun i => c.getD i 0 + 1) 1 [(8, cells.length)])
    (.ucdmesh (coords3 pts) pts.length cells.length))

/-- `add_mesh` of quadrangles, lines 454-515. -/
def addQuadrangles (db : Db K) (pts : List (P2 K)) (cells : List (List Nat)) : Outcome (Bool × List (Call K)) :=
  if db.isOpen ∧ ¬ ∀ c ∈ cells, c.length = 4 then .ub "assertion ptids.size() == 4"
  else .ok (db.meshCalls
    (.zonelist (cells.flatMap fun c => [0, 1, 3, 2].map fun i => c.getD i 0 + 1) 1 [(4, cells.length)])
    (.ucdmesh (coords2 pts) pts.length cells.length))

/-- `add_mesh` of polygons, lines 601-663; cells are their `point_ids` and their numbers of faces. -/
def addPolygons (db : Db K) (pts : List (P2 K)) (cells : List (List Nat × Nat)) : Outcome (Bool × List (Call K)) :=
  if db.isOpen ∧ ¬ ∀ c ∈ cells, 2 < c.1.length then .ub "assertion size > 2"
  else .ok (db.meshCalls
    (.zonelist (cells.flatMap fun c => c.1.map (· + 1)) 1 (cells.map fun c => (c.2, 1)))
    (.ucdmesh (coords2 pts) pts.length cells.length))

variable [LinearOrder K]

/-- Cross product. -/
def cross (u v : P3 K) : P3 K := ⟨u.y * v.z - u.z * v.y, u.z * v.x - u.x * v.z, u.x * v.y - u.y * v.x⟩

/-- Difference of points. -/
def sub (a b : P3 K) : P3 K := ⟨a.x - b.x, a.y - b.y, a.z - b.z⟩

/-- Scalar product. -/
def dot (u v : P3 K) : K := u.x * v.x + u.y * v.y + u.z * v.z

/-- `silo_face_orientation`, lines 66-88, of the points of a cell and of a face. -/
def faceOrientation (cell face : List (P3 K)) : Outcome Int :=
  match face with
  | p0 :: p1 :: p2 :: _ =>
    let n := cross (sub p1 p0) (sub p2 p1)
    .ok (if dot n (sub (Polyhedron.bary face) (Polyhedron.bary cell)) < 0 then -1 else 1)
  | _ => .ub "assertion pts.size() >= 3"

/-- A generic mesh of space: points, faces by their points, cells by their points and their faces. `offset` of a face is
its position. -/
structure Mesh3 (K : Type) where
  pts : List (P3 K)
  faces : List (List Nat)
  cells : List (List Nat × List Nat)

/-- Points of an element. -/
def pointsOf (pts : List (P3 K)) (l : List Nat) : List (P3 K) := l.map fun i => pts.getD i ⟨0, 0, 0⟩

/-- The face list of a cell, lines 555-565: `~ofs` is `-ofs - 1`. -/
def cellFaces (m : Mesh3 K) (cell : List Nat) : List Nat → Outcome (List Int)
  | [] => .ok []
  | f :: fs =>
    (faceOrientation (pointsOf m.pts cell) (pointsOf m.pts (m.faces.getD f []))).bind fun o =>
    (cellFaces m cell fs).bind fun r => .ok ((if o < 0 then -(f : Int) - 1 else (f : Int)) :: r)

/-- The face lists of all cells. -/
def allFaces (m : Mesh3 K) : List (List Nat × List Nat) → Outcome (List Int)
  | [] => .ok []
  | c :: cs => (cellFaces m c.1 c.2).bind fun a => (allFaces m cs).bind fun b => .ok (a ++ b)

/-- `add_mesh` of polyhedra, lines 517-599; `DBAddOption` does not fail. -/
def addPolyhedra (db : Db K) (m : Mesh3 K) : Outcome (Bool × List (Call K)) :=
  if !db.isOpen then .ok (false, [])
  else (allFaces m m.cells).bind fun fl => .ok (db.meshCalls
    (.phzonelist (m.faces.map List.length) m.faces.flatten (m.cells.map fun c => c.2.length) fl)
    (.ucdmesh (coords3 m.pts) m.pts.length m.cells.length))

omit [LinearOrder K]

/-- `add_variable` of one column (an Eigen vector), lines 760-800. -/
def addColumn (db : Db K) (name : String) (v : List K) (nodal : Bool) : Bool × List (Call K) :=
  if !db.isOpen then (false, []) else (db.put (.ucdvar name v nodal), [.ucdvar name v nodal])

/-- `add_expression`, lines 902-912: the result of the library is dropped. -/
def addExpression (db : Db K) (name : String) (parts : List String) : Bool × List (Call K) :=
  (true, if db.isOpen then [.defvars name parts] else [])

/-- `add_variable` of two columns, lines 802-817: what the calls return is dropped. -/
def addColumns2 (db : Db K) (name : String) (x y : List K) (nodal : Bool) : Bool × List (Call K) :=
  (true, (addColumn db (name ++ "_x") x nodal).2 ++ (addColumn db (name ++ "_y") y nodal).2 ++
    (addExpression db name [name ++ "_x", name ++ "_y"]).2)

/-- `add_variable` of three columns, lines 819-837. -/
def addColumns3 (db : Db K) (name : String) (x y z : List K) (nodal : Bool) : Bool × List (Call K) :=
  (true, (addColumn db (name ++ "_x") x nodal).2 ++ (addColumn db (name ++ "_y") y nodal).2 ++
    (addColumn db (name ++ "_z") z nodal).2 ++ (addExpression db name [name ++ "_x", name ++ "_y", name ++ "_z"]).2)

/-- `add_variable` of a `std::vector`, lines 839-872: the result of the library is dropped. -/
def addVector (db : Db K) (name : String) (v : List K) (nodal : Bool) : Bool × List (Call K) :=
  if !db.isOpen then (false, []) else (true, [.ucdvar name v nodal])

/-- `add_variable` of several values at points, lines 874-889: the first is read before its existence is known. -/
def addPointVars (db : Db K) (vars : List (List K)) : Outcome (Bool × List (Call K)) :=
  match vars with
  | [] => .ub "vars[0]"
  | v :: _ => .ok (db.put (.pointvar vars v.length), if db.isOpen then [.pointvar vars v.length] else [])

end Verif.Silo
