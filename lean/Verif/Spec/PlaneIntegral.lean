import Verif.Spec.Points
import Verif.Spec.Quadrature
import Mathlib.MeasureTheory.Integral.IntervalIntegral.Basic
/-!
Integrals of polynomials over polygons, by Green's formula: the integral over a counter-clockwise polygon of
the derivative in `x` of `F` is the integral of `F dy` along its boundary.
-/
namespace Verif.Spec

/-- A polynomial of two variables: its terms `c x^i y^j`. -/
abbrev Poly2 := List (ℝ × ℕ × ℕ)

namespace Poly2

/-- Value. -/
def eval (f : Poly2) (x y : ℝ) : ℝ := (f.map fun t => t.1 * (x ^ t.2.1 * y ^ t.2.2)).sum

/-- Total degree at most `d`. -/
def DegLE (f : Poly2) (d : ℕ) : Prop := ∀ t ∈ f, t.2.1 + t.2.2 ≤ d

/-- A primitive in `x`. -/
noncomputable def primX (f : Poly2) : Poly2 := f.map fun t => (t.1 / ((t.2.1 : ℝ) + 1), t.2.1 + 1, t.2.2)

/-- `Σ |c| ρ^(i+j)`. -/
def size (f : Poly2) (ρ : ℝ) : ℝ := (f.map fun t => |t.1| * ρ ^ (t.2.1 + t.2.2)).sum

end Poly2

/-- `∫ F dy` along the segment from `p` to `q`. -/
noncomputable def edgeInt (F : ℝ → ℝ → ℝ) (p q : P2 ℝ) : ℝ :=
  ∫ t in (0 : ℝ)..1, F (p.x + t * (q.x - p.x)) (p.y + t * (q.y - p.y)) * (q.y - p.y)

/-- `∮ F dy` along a closed polygon. -/
noncomputable def boundaryInt (F : ℝ → ℝ → ℝ) (pts : List (P2 ℝ)) : ℝ :=
  ((sides pts).map fun e => edgeInt F e.1 e.2).sum

/-- The integral over a counter-clockwise polygon of `f (x - z.x, y - z.y)`. -/
noncomputable def polyInt (f : Poly2) (z : P2 ℝ) (pts : List (P2 ℝ)) : ℝ :=
  boundaryInt (fun x y => f.primX.eval (x - z.x) (y - z.y)) pts

/-- Sum of the absolute coefficients of the bilinear function on `[-1, 1]²` with the values `c0 c1 c2 c3` at the
corners. -/
noncomputable def bilSum (c0 c1 c2 c3 : ℝ) : ℝ :=
  |(c0 + c1 + c2 + c3) / 4| + |(-c0 + c1 + c2 - c3) / 4| + |(-c0 - c1 + c2 + c3) / 4| +
  |(c0 - c1 + c2 - c3) / 4|

/-- Integral over the reference triangle `u, v ≥ 0`, `u + v ≤ 1`. -/
noncomputable def refTri (h : ℝ → ℝ → ℝ) : ℝ := ∫ u in (0 : ℝ)..1, ∫ v in (0 : ℝ)..(1 - u), h u v

/-- The triangle rule `s` is stored as `t`: coordinates move by at most `halfUlp` and stay in `[0, 1]`, weights
move by at most the relative error of rounding to nearest. -/
def StoredTri (s t : List ((ℝ × ℝ) × ℝ)) : Prop :=
  List.Forall₂ (fun x y => |y.1.1 - x.1.1| ≤ halfUlp ∧ |y.1.2 - x.1.2| ≤ halfUlp ∧ |y.2 - x.2| ≤ halfUlp * |x.2| ∧
    |y.1.1| ≤ 1 ∧ |y.1.2| ≤ 1) s t

/-- The Dunavant rule `s` is stored as `t`: same numbers of points, coordinates move by at most `2 * halfUlp` (one
of them is above 1), weights by at most the relative error of rounding to nearest. -/
def StoredDun (s t : List (ℕ × (ℝ × ℝ × ℝ) × ℝ)) : Prop :=
  List.Forall₂ (fun x y => y.1 = x.1 ∧ |y.2.1.1 - x.2.1.1| ≤ 2 * halfUlp ∧ |y.2.1.2.1 - x.2.1.2.1| ≤ 2 * halfUlp ∧
    |y.2.1.2.2 - x.2.1.2.2| ≤ 2 * halfUlp ∧ |y.2.2 - x.2.2| ≤ halfUlp * |x.2.2|) s t

end Verif.Spec
