import Mathlib.Data.List.Forall2
import Verif.Model.MeshFile
/-!
Contents of a mesh file and what a mesh stores when it has been read correctly. Of the model only the type of tokens,
the containers of a mesh and the boundary descriptors are used.
-/
namespace Verif.Spec
open Verif.MeshFile (Tok Storage)
open Verif.MeshTopo (BDesc)

/-- Contents of a mesh file: points, cells with the number of their subdomain, boundary faces with their boundary
number. Corners are counted from zero. -/
structure FileMesh (K : Type) where
  points : List (List K)
  cells : List (Nat × List Nat)
  bnd : List (Nat × List Nat)

section
variable {K : Type} [Ring K]

/-- The token is a number of value `x`. -/
def CoordTok : Tok K → K → Prop
  | .int z, x => (z : K) = x
  | .real _ y _, x => y = x
  | _, _ => False

/-- A natural number in the file. -/
def natTok (n : Nat) : Tok K := .int n

/-- A line of a Netgen file: the number, then the corners counted from one. -/
def netgenLine (x : Nat × List Nat) : List (Tok K) := natTok x.1 :: x.2.map fun c => natTok (c + 1)

/-- A line of a Cartesian file: the corners counted from zero. -/
def cartesianLine (x : Nat × List Nat) : List (Tok K) := x.2.map natTok

/-- `toks` is a text of the mesh `m` whose lines of cells and boundary faces are written by `line`; anything may
follow. -/
def TextOf (line : Nat × List Nat → List (Tok K)) (toks : List (Tok K)) (m : FileMesh K) : Prop :=
  ∃ pt rest, List.Forall₂ CoordTok pt m.points.flatten ∧
    toks = natTok m.points.length :: (pt ++ natTok m.cells.length :: (m.cells.flatMap line ++
      natTok m.bnd.length :: (m.bnd.flatMap line ++ rest)))

/-- A file with points of `dim` coordinates, cells of `nc` and boundary faces of `nb` different existing corners, whose
numbers are 64-bit numbers and which fits in the memory. -/
structure FileOk (cap dim nc nb : Nat) (m : FileMesh K) : Prop where
  bound : cap < 2 ^ 64
  npoints : m.points.length ≤ cap
  ncells : m.cells.length ≤ cap
  nbnd : m.bnd.length ≤ cap
  dim : ∀ p ∈ m.points, p.length = dim
  cell : ∀ c ∈ m.cells, c.1 < 2 ^ 64 ∧ c.2.length = nc ∧ c.2.Nodup ∧ ∀ i ∈ c.2, i < m.points.length
  face : ∀ f ∈ m.bnd, f.1 < 2 ^ 64 ∧ f.2.length = nb ∧ f.2.Nodup ∧ ∀ i ∈ f.2, i < m.points.length

/-- `e` is a set of `k` of the corners `p`, in increasing order. -/
def SubSimplex (k : Nat) (e p : List Nat) : Prop := e.Pairwise (· < ·) ∧ e.length = k ∧ ∀ i ∈ e, i ∈ p

/-- The boundary number the file gives to the face with corners `f`: the last one listed. -/
def listedNumber (bnd : List (Nat × List Nat)) (f : List Nat) : Option Nat :=
  (bnd.filter fun x => decide (x.2.Perm f)).getLast?.map Prod.fst

/-- The number of cells of the file having all the corners `f`. -/
def cellsAround (cells : List (Nat × List Nat)) (f : List Nat) : Nat :=
  cells.countP fun c => decide (∀ i ∈ f, i ∈ c.2)

/-- The descriptors: a face is flagged exactly if the file lists it, with the number given there. -/
def FlaggedAs (info : List BDesc) (faces : List (List Nat)) (bnd : List (Nat × List Nat)) : Prop :=
  info.length = faces.length ∧ ∀ (i : Nat) (f : List Nat) (d : BDesc), faces[i]? = some f → info[i]? = some d →
    d.isB = (listedNumber bnd f).isSome ∧ d.id = (listedNumber bnd f).getD 0 ∧ d.tag = (listedNumber bnd f).getD 0

/-- The container `l` is strictly increasing and its elements are those with the property `P`. -/
def Collects (l : List (List Nat)) (P : List Nat → Prop) : Prop := l.Pairwise (· < ·) ∧ ∀ e, e ∈ l ↔ P e

/-- Points and nodes of the file. -/
def PointsAs (s : Storage K) (m : FileMesh K) : Prop :=
  s.points = m.points ∧ s.nodes.length = m.points.length ∧ ∀ i, i < m.points.length → s.nodes[i]? = some [i]

/-- The corners of a quadrangle (`n = 2`) or hexahedron (`n = 3`) are numbered by bits: `c` and `c'` are the ends of an
edge. -/
def EdgeOf (n : Nat) (p : List Nat) (e : List Nat) : Prop :=
  ∃ i j k, k < n ∧ i < 2 ^ n ∧ i.testBit k = false ∧ j = i + 2 ^ k ∧ e = [p.getD i 0, p.getD j 0]

/-- The corners of the side of a hexahedron whose bit `k` is `b`, in the order of their numbers. -/
def sideCorners (p : List Nat) (k : Nat) (b : Bool) : List Nat :=
  ((List.range 8).filter fun i => i.testBit k == b).map fun i => p.getD i 0

/-- `f` runs once around the side of a hexahedron with bit `k` equal to `b`: its points are the corners of the side and
consecutive ones are joined by an edge. -/
def AroundSide (p : List Nat) (k : Nat) (b : Bool) (f : List Nat) : Prop :=
  f.Perm (sideCorners p k b) ∧
  ∀ n, n < 4 → EdgeOf 3 p [f.getD n 0, f.getD ((n + 1) % 4) 0] ∨ EdgeOf 3 p [f.getD ((n + 1) % 4) 0, f.getD n 0]

end
end Verif.Spec
