import Verif.Model.VemDofs
/-!
What the numbering of the virtual element unknowns is compared with: the closed walk along the boundary of a cell and
the numbers of the unknowns on its sides.
-/
namespace Verif.Spec.VemDofs
open Verif.VemDofs Verif.MeshTopo

/-- The corners of a cell in the order in which they are visited. -/
def walk : Cell → List Nat
  | .tri p0 p1 p2 => [p0, p1, p2]
  | .quad p0 p1 p2 p3 => [p0, p1, p3, p2]
  | .poly pts _ => pts

/-- The sides of a closed walk: from every corner to the next one, the last one back to the first. -/
def walkSides (l : List Nat) : List (Nat × Nat) :=
  (List.range l.length).map fun i => (l.getD i 0, l.getD ((i + 1) % l.length) 0)

/-- The face between two points. -/
def faceOf (faces : List (List Nat)) (v w : Nat) : List Nat := if [v, w] ∈ faces then [v, w] else [w, v]

/-- Number of unknown `q` (from `0` to `k`) on the face between `v` and `w` counted from `v`: the ends have the numbers
of the points; the unknowns inside the faces follow, face by face in the direction in which the face is stored. -/
def dofAt (npts k : Nat) (faces : List (List Nat)) (v w q : Nat) : Nat :=
  if q = 0 then v else if q = k then w
  else npts + faces.idxOf (faceOf faces v w) * (k - 1) + (if [v, w] ∈ faces then q - 1 else k - 1 - q)

/-- All unknowns of the face, from `v` to `w`. -/
def dofsOn (npts k : Nat) (faces : List (List Nat)) (v w : Nat) : List Nat :=
  (List.range (k + 1)).map (dofAt npts k faces v w)

/-- The corners are distinct, consecutive ones are joined by a face of the mesh, and the cell is stored as the three
kinds of meshes do: the points of triangles in increasing order, the points of quadrangles row by row, the points of a
polygon in the order of the walk together with its faces. -/
structure CellOk (faces : List (List Nat)) (c : Cell) : Prop where
  nodup : (walk c).Nodup
  three : 3 ≤ (walk c).length
  joined : ∀ s ∈ walkSides (walk c), faceOf faces s.1 s.2 ∈ faces
  stored : match c with
    | .tri p0 p1 p2 => p0 < p1 ∧ p1 < p2 ∧ [p0, p1] ∈ faces ∧ [p1, p2] ∈ faces ∧ [p0, p2] ∈ faces
    | .quad p0 p1 p2 p3 => [p0, p1] ∈ faces ∧ [p1, p3] ∈ faces ∧ [p2, p3] ∈ faces ∧ [p0, p2] ∈ faces
    | .poly pts fcs => fcs.Nodup ∧ fcs.length = pts.length ∧ (∀ f ∈ fcs, f ∈ faces ∧ ∃ a b, f = [a, b] ∧ a < b) ∧
        ∀ s ∈ walkSides pts, faceOf faces s.1 s.2 ∈ fcs

/-- Faces are stored in increasing order, each has two different points of the mesh and is stored in one direction
only, and every face has a descriptor. -/
structure MeshOk (m : Mesh) : Prop where
  sorted : m.faces.Pairwise (· < ·)
  ends : ∀ f ∈ m.faces, ∃ a b, f = [a, b] ∧ a ≠ b ∧ a < m.npts ∧ b < m.npts
  once : ∀ a b, [a, b] ∈ m.faces → [b, a] ∉ m.faces
  binfo : m.binfo.length = m.faces.length
  cells : ∀ c ∈ m.cells, CellOk m.faces c

/-- Twice the area enclosed by a closed walk, positive if it is counter-clockwise. -/
def area2 (x y : Nat → Int) (l : List Nat) : Int :=
  ((walkSides l).map fun s => x s.1 * y s.2 - x s.2 * y s.1).sum

end Verif.Spec.VemDofs
