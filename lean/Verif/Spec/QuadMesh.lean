import Verif.Model.QuadRefine
import Mathlib.Algebra.Order.Field.Basic
import Mathlib.Data.Fin.VecNotation
/-!
Conforming meshes of quadrangles whose corners are numbered by two bits, and squares in the plane; nothing here refers
to how a mesh is refined.
-/
namespace Verif.Spec.QuadMesh
open Verif.QuadRefine
open TriRefine (Edge Bd)

/-- The sides of a quadrangle. -/
def sides (t : Quad) : List Edge := [⟨t.a, t.b⟩, ⟨t.a, t.c⟩, ⟨t.b, t.d⟩, ⟨t.c, t.d⟩]

/-- Number of quadrangles of the list having `e` as a side. -/
def owners (ts : List Quad) (e : Edge) : Nat := ts.countP fun t => decide (e ∈ sides t)

/-- Conforming mesh: edges and quadrangles are stored strictly sorted with points that exist, the sides of every
quadrangle are stored, and an edge belongs to exactly one quadrangle if it is marked as boundary and to exactly two
otherwise. -/
structure Conforming {K : Type} (m : Mesh K) : Prop where
  edge_lt : ∀ x ∈ m.edges, x.1.a < x.1.b ∧ x.1.b < m.points.length
  edge_sorted : (m.edges.map Prod.fst).Pairwise (· < ·)
  quad_ne : ∀ t ∈ m.quads, t.b ≠ t.c
  quad_sorted : m.quads.Pairwise (· < ·)
  quad_sides : ∀ t ∈ m.quads, ∀ e ∈ sides t, e ∈ m.edges.map Prod.fst
  shared : ∀ x ∈ m.edges, owners m.quads x.1 = if x.2.bnd then 1 else 2

section
variable {K : Type} [Field K]

/-- The point with coordinates `s`, `r` in the square with corner `p` and side `u`; the other side is `u` turned by a
right angle. -/
def at_ (p u : K × K) (s r : K) : K × K := (p.1 + s * u.1 - r * u.2, p.2 + s * u.2 + r * u.1)

/-- The quadrangle is the square with corner `p` and side `u`, its corners counterclockwise being `a`, `b`, `d`, `c`. -/
def IsSquare (pts : List (K × K)) (t : Quad) (p u : K × K) : Prop :=
  pts[t.a]? = some (at_ p u 0 0) ∧ pts[t.b]? = some (at_ p u 1 0) ∧ pts[t.c]? = some (at_ p u 0 1) ∧
  pts[t.d]? = some (at_ p u 1 1)

/-- A vector of length `h` along an axis. -/
def Axis (u : K × K) (h : K) : Prop := u = (h, 0) ∨ u = (0, h) ∨ u = (-h, 0) ∨ u = (0, -h)

variable [LinearOrder K]

/-- The points of a square. -/
def Inside (p u x : K × K) : Prop := ∃ s r, 0 ≤ s ∧ s ≤ 1 ∧ 0 ≤ r ∧ r ≤ 1 ∧ x = at_ p u s r

/-- The inner points of a square. -/
def Inner (p u x : K × K) : Prop := ∃ s r, 0 < s ∧ s < 1 ∧ 0 < r ∧ r < 1 ∧ x = at_ p u s r

/-- The cells partition the unit square. -/
structure Partition (m : Mesh K) : Prop where
  within : ∀ t ∈ m.quads, ∀ p u, IsSquare m.points t p u → ∀ x, Inside p u x → 0 ≤ x.1 ∧ x.1 ≤ 1 ∧ 0 ≤ x.2 ∧ x.2 ≤ 1
  covers : ∀ x : K × K, 0 ≤ x.1 → x.1 ≤ 1 → 0 ≤ x.2 → x.2 ≤ 1 →
    ∃ t ∈ m.quads, ∃ p u, IsSquare m.points t p u ∧ Inside p u x
  disjoint : ∀ t ∈ m.quads, ∀ t' ∈ m.quads, ∀ p u p' u', IsSquare m.points t p u → IsSquare m.points t' p' u' →
    ∀ x, Inner p u x → Inner p' u' x → t = t'

/-- The sides of the unit square by their numbers: bottom, right, top, left. -/
def OnSide (i : Nat) (x : K × K) : Prop :=
  (i = 0 ∧ x.2 = 0) ∨ (i = 1 ∧ x.1 = 1) ∨ (i = 2 ∧ x.2 = 1) ∨ (i = 3 ∧ x.1 = 0)

end
/-- The corner of a box by the bits of its number. -/
def boxCorner {K : Type} [Field K] (o l : Fin 3 → K) (i : Fin 8) : Fin 3 → K :=
  ![o 0 + (if i.val % 2 = 1 then l 0 else 0), o 1 + (if i.val / 2 % 2 = 1 then l 1 else 0),
    o 2 + (if i.val / 4 % 2 = 1 then l 2 else 0)]

end Verif.Spec.QuadMesh
