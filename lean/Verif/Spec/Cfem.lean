import Verif.Spec.PlaneIntegral
/-!
Integrals over triangles and affine functions of the plane.
-/
namespace Verif.Spec

/-- Integral over the triangle `p0 p1 p2`, in the coordinates `p0 + u (p1 - p0) + v (p2 - p0)`. -/
noncomputable def triInt (p0 p1 p2 : P2 ℝ) (g : P2 ℝ → ℝ) : ℝ :=
  |turn p0 p1 p2| * refTri fun u v =>
    g ⟨p0.x + u * (p1.x - p0.x) + v * (p2.x - p0.x), p0.y + u * (p1.y - p0.y) + v * (p2.y - p0.y)⟩

/-- `c + a x + b y`. -/
def affineFun (c a b : ℝ) (p : P2 ℝ) : ℝ := c + a * p.x + b * p.y

end Verif.Spec
