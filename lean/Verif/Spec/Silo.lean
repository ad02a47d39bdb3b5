import Verif.Spec.Points
/-!
How lists of zones of Silo files are read, and faces that are listed counter-clockwise seen from outside.
-/
namespace Verif.Spec.Silo
open Verif.Spec

/-- Cut a list in blocks of given lengths; all of it has to be used. -/
def cutBlocks {α : Type} : List Nat → List α → Option (List (List α))
  | [], [] => some []
  | [], _ :: _ => none
  | s :: ss, l => if l.length < s then none else (cutBlocks ss (l.drop s)).map (l.take s :: ·)

/-- The zones of a list with shapes, given by their sizes and how many zones they have. -/
def readZones (nodes : List Nat) (shapes : List (Nat × Nat)) : Option (List (List Nat)) :=
  cutBlocks (shapes.flatMap fun s => List.replicate s.2 s.1) nodes

/-- An entry of a face list: a negative one, `-n - 1`, is face `n` in reversed order. -/
def readFace (faces : List (List Nat)) (e : Int) : Option (List Nat) :=
  if 0 ≤ e then faces[e.toNat]? else (faces[(-e - 1).toNat]?).map List.reverse

/-- The corners of a square in the order of rows. -/
def rowOrder (f : Bool → Bool → Nat) : List Nat := [f false false, f true false, f false true, f true true]

/-- The corners of a square along its boundary. -/
def ringOrder (f : Bool → Bool → Nat) : List Nat := [f false false, f true false, f true true, f false true]

section ring
variable {K : Type} [CommRing K]

/-- Scalar product. -/
def dot (u v : P3 K) : K := u.x * v.x + u.y * v.y + u.z * v.z

/-- Twice the vector area of a closed polygon in space, by its three projections. Along the vector the polygon is
counter-clockwise. -/
def vecArea (l : List (P3 K)) : P3 K :=
  ⟨shoelace (l.map fun p => ⟨p.y, p.z⟩), shoelace (l.map fun p => ⟨p.z, p.x⟩), shoelace (l.map fun p => ⟨p.x, p.y⟩)⟩

end ring

section ordered
variable {K : Type} [Field K] [LinearOrder K]

/-- `n` is a normal of the face that points out of the cell, of which some point is not in the plane of the face, and the
first three points of the face turn the way the face does. -/
structure Regular (n : P3 K) (d : K) (cell face : List (P3 K)) : Prop where
  plane : ∀ p ∈ face, dot n p = d
  side : ∀ p ∈ cell, dot n p ≤ d
  solid : ∃ p ∈ cell, dot n p < d
  corner : ∀ a b c l, face = a :: b :: c :: l → 0 < dot (vecArea [a, b, c]) n * dot (vecArea face) n

end ordered

end Verif.Spec.Silo
