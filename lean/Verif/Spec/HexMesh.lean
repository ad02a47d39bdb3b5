import Verif.Model.HexMesh
import Mathlib.Algebra.Order.Field.Basic
/-!
Tiles, areas and conformity of polygon meshes of the square.
-/
namespace Verif.Spec.HexMesh
open Verif.HexMesh (Pt Poly)

/-- All tiles of an `n` by `n` grid. -/
def grid (n : Nat) : List (Nat × Nat) := (List.range n).flatMap fun y => (List.range n).map fun x => (x, y)

/-- The sides of a polygon, in order. -/
def ring (p : Poly) : List (Pt × Pt) := p.zip (p.tail ++ p.take 1)

/-- Twice the signed area of a polygon. -/
def area2 (p : Poly) : Int :=
  ((ring p).map fun s => (s.1.1 : Int) * s.2.2 - (s.2.1 : Int) * s.1.2).sum

/-- How many sides of polygons are the edge `{a, b}`. -/
def uses (polys : List Poly) (a b : Pt) : Nat :=
  (polys.flatMap ring).countP fun s => s = (a, b) || s = (b, a)

section
variable {K : Type} [Field K] [LinearOrder K] [IsStrictOrderedRing K]

/-- Twice the signed area of the triangle of a side and a point: positive to the left of the side. -/
def leftOf (s : Pt × Pt) (z : K × K) : K :=
  ((s.2.1 : K) - s.1.1) * (z.2 - s.1.2) - ((s.2.2 : K) - s.1.2) * (z.1 - s.1.1)

/-- The point lies in the convex polygon. -/
def InClosed (p : Poly) (z : K × K) : Prop := ∀ s ∈ ring p, 0 ≤ leftOf s z

/-- The point lies in the interior of the convex polygon. -/
def InOpen (p : Poly) (z : K × K) : Prop := ∀ s ∈ ring p, 0 < leftOf s z

end

end Verif.Spec.HexMesh
