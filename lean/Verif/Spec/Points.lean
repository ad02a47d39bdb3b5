import Mathlib.Data.List.Rotate
import Mathlib.Algebra.Order.Field.Basic
import Mathlib.Algebra.BigOperators.Group.List.Basic
/-!
Points of the plane and of space, polygons given by their vertices, and what areas, centroids and convexity
are.
-/
namespace Verif.Spec

/-- A point of the plane. -/
@[ext] structure P2 (K : Type) where
  x : K
  y : K
  deriving DecidableEq

/-- A point of space. -/
@[ext] structure P3 (K : Type) where
  x : K
  y : K
  z : K
  deriving DecidableEq

variable {K : Type}

/-- Consecutive vertices of a closed polygon. -/
def sides (pts : List (P2 K)) : List (P2 K × P2 K) := pts.zip (pts.rotate 1)

/-- The faces of a cell, in any order and each with its end points in any order. -/
def FacesOf (pts : List (P2 K)) (fcs : List (P2 K × P2 K)) : Prop :=
  ∃ l : List (P2 K × P2 K), List.Forall₂ (fun e f => f = e ∨ f = e.swap) (sides pts) l ∧ l.Perm fcs

section ring
variable [CommRing K]

/-- Twice the signed area of the triangle `a b c`; positive when it is counter-clockwise. -/
def turn (a b c : P2 K) : K := (b.x - a.x) * (c.y - a.y) - (b.y - a.y) * (c.x - a.x)

/-- Twice the signed area of a closed polygon (shoelace formula). -/
def shoelace (pts : List (P2 K)) : K := ((sides pts).map fun e => e.1.x * e.2.y - e.2.x * e.1.y).sum

/-- Six times the signed volume of the tetrahedron `a b c d`. -/
def vol6 (a b c d : P3 K) : K :=
  (b.x - a.x) * ((c.y - a.y) * (d.z - a.z) - (c.z - a.z) * (d.y - a.y))
  - (b.y - a.y) * ((c.x - a.x) * (d.z - a.z) - (c.z - a.z) * (d.x - a.x))
  + (b.z - a.z) * ((c.x - a.x) * (d.y - a.y) - (c.y - a.y) * (d.x - a.x))

end ring

section ordered
variable [Field K] [LinearOrder K] [IsStrictOrderedRing K]

/-- Convex polygon, vertices counter-clockwise: no vertex is to the right of a side. -/
def ConvexCCW (pts : List (P2 K)) : Prop := ∀ e ∈ sides pts, ∀ v ∈ pts, 0 ≤ turn e.1 e.2 v

/-- The polygon is seen counter-clockwise from the point `c`, and `c` is on no side. -/
def StarFrom (c : P2 K) (pts : List (P2 K)) : Prop := ∀ e ∈ sides pts, 0 < turn e.1 e.2 c

/-- `p` is the combination of the vertices of a tetrahedron with the given coefficients. -/
def Bary (a b c d p : P3 K) (l0 l1 l2 l3 : K) : Prop :=
  l0 + l1 + l2 + l3 = 1 ∧ p.x = l0 * a.x + l1 * b.x + l2 * c.x + l3 * d.x ∧
  p.y = l0 * a.y + l1 * b.y + l2 * c.y + l3 * d.y ∧ p.z = l0 * a.z + l1 * b.z + l2 * c.z + l3 * d.z

/-- `p` is inside the tetrahedron or on its boundary. -/
def InClosed (a b c d p : P3 K) : Prop :=
  ∃ l0 l1 l2 l3 : K, 0 ≤ l0 ∧ 0 ≤ l1 ∧ 0 ≤ l2 ∧ 0 ≤ l3 ∧ Bary a b c d p l0 l1 l2 l3

/-- `p` is inside the tetrahedron. -/
def InOpen (a b c d p : P3 K) : Prop :=
  ∃ l0 l1 l2 l3 : K, 0 < l0 ∧ 0 < l1 ∧ 0 < l2 ∧ 0 < l3 ∧ Bary a b c d p l0 l1 l2 l3

end ordered
end Verif.Spec
