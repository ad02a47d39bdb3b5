import Verif.Spec.Poly3
import Verif.Spec.Points
import Verif.Spec.Quadrature
import Mathlib.MeasureTheory.Integral.IntervalIntegral.Basic
/-!
Integrals over tetrahedra.
-/
namespace Verif.Spec

/-- Integral over the reference tetrahedron `u, v, w ≥ 0`, `u + v + w ≤ 1`. -/
noncomputable def refTet (h : ℝ → ℝ → ℝ → ℝ) : ℝ :=
  ∫ u in (0 : ℝ)..1, ∫ v in (0 : ℝ)..(1 - u), ∫ w in (0 : ℝ)..(1 - u - v), h u v w

/-- The point with coordinates `u, v, w` in the frame of the vertices. -/
def inTet (p0 p1 p2 p3 : P3 ℝ) (u v w : ℝ) : P3 ℝ :=
  ⟨p0.x + u * (p1.x - p0.x) + v * (p2.x - p0.x) + w * (p3.x - p0.x),
   p0.y + u * (p1.y - p0.y) + v * (p2.y - p0.y) + w * (p3.y - p0.y),
   p0.z + u * (p1.z - p0.z) + v * (p2.z - p0.z) + w * (p3.z - p0.z)⟩

/-- Integral over a tetrahedron, by the change of variables from the reference tetrahedron. -/
noncomputable def tetInt (f : P3 ℝ → ℝ) (p0 p1 p2 p3 : P3 ℝ) : ℝ :=
  |vol6 p0 p1 p2 p3| * refTet fun u v w => f (inTet p0 p1 p2 p3 u v w)

/-- The tetrahedron rule `s` is stored as `t`: coordinates move by at most `halfUlp`, weights by at most the relative
error of rounding to nearest. -/
def StoredTet (s t : List ((ℝ × ℝ × ℝ) × ℝ)) : Prop :=
  List.Forall₂ (fun x y => |y.1.1 - x.1.1| ≤ halfUlp ∧ |y.1.2.1 - x.1.2.1| ≤ halfUlp ∧ |y.1.2.2 - x.1.2.2| ≤ halfUlp ∧
    |y.2 - x.2| ≤ halfUlp * |x.2|) s t

/-- The numbers `s`, below 2 in size, are stored as `t`. -/
def StoredNums (s t : List ℝ) : Prop := List.Forall₂ (fun x y => |y - x| ≤ halfUlp) s t

section field
variable {K : Type} [Field K]

/-- Consecutive vertices of a closed polygon in space. -/
def sides3 (l : List (P3 K)) : List (P3 K × P3 K) := l.zip (l.rotate 1)

/-- Mean of points. -/
def mean3 (l : List (P3 K)) : P3 K :=
  ⟨(l.map (·.x)).sum / l.length, (l.map (·.y)).sum / l.length, (l.map (·.z)).sum / l.length⟩

/-- The sides of a face turned outwards: `b` tells whether its vertices are. -/
def outSides (f : List (P3 K) × Bool) : List (P3 K × P3 K) :=
  if f.2 then sides3 f.1 else (sides3 f.1).map Prod.swap

/-- Every side of a face is a side of another face in the other direction. -/
def ClosedSurface (fs : List (List (P3 K) × Bool)) : Prop :=
  (fs.flatMap outSides).Perm ((fs.flatMap outSides).map Prod.swap)

/-- The points are in a plane. -/
def Planar (l : List (P3 K)) : Prop :=
  ∃ n : P3 K, ∃ c : K, n ≠ ⟨0, 0, 0⟩ ∧ ∀ p ∈ l, n.x * p.x + n.y * p.y + n.z * p.z = c

/-- Volume inside a surface: the signed volumes seen from `z` of the triangles that join the first vertex of a face
to its sides. -/
def surfVol (z : P3 K) (fs : List (List (P3 K) × Bool)) : K :=
  (fs.map fun f => ((outSides f).map fun e => vol6 z (f.1.headD ⟨0, 0, 0⟩) e.1 e.2).sum).sum / 6

variable [LinearOrder K]

/-- Convex polyhedron with vertices `pts`: the triangles made of a side and a vertex of a face are turned outwards as
seen from all vertices. -/
def ConvexSurface (pts : List (P3 K)) (fs : List (List (P3 K) × Bool)) : Prop :=
  ∀ p ∈ pts, ∀ f ∈ fs, ∀ v ∈ f.1, ∀ e ∈ outSides f, 0 ≤ vol6 p v e.1 e.2

end field

end Verif.Spec
