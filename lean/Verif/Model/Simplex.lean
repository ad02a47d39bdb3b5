import Verif.Model.Polygon
/-!
Triangles and tetrahedra: `geometry/geometry_simplicial.hpp`, `common/simplicial_formula.hpp`, and the normals
of `geometry/geometry_all.hpp`. Coordinates are exact; a division by zero is `none`.
-/
namespace Verif.Simplex
open Verif.Spec

variable {K : Type}

section field
variable [Field K] [LinearOrder K] [IsStrictOrderedRing K]

/-- `p1 - p0`. -/
def sub (p q : P3 K) : P3 K := ⟨p.x - q.x, p.y - q.y, p.z - q.z⟩
/-- `v.dot(w)`. -/
def dot (v w : P3 K) : K := v.x * w.x + v.y * w.y + v.z * w.z
/-- `v.cross(w)`. -/
def cross (v w : P3 K) : P3 K := ⟨v.y * w.z - v.z * w.y, v.z * w.x - v.x * w.z, v.x * w.y - v.y * w.x⟩

/-- `if (t < 0) count--; else count++;` -/
def vote (t : K) : Int := if t < 0 then -1 else 1

/-- 3D `is_inside`, `geometry/geometry_simplicial.hpp:389-418`. -/
def isInside (p0 p1 p2 p3 pt : P3 K) : Bool :=
  let v0 := sub p1 p0
  let v1 := sub p2 p0
  let v2 := sub p2 p1
  let v3 := sub p3 p0
  let v4 := sub p3 p1
  let count := vote (dot (cross v3 v0) (sub pt p0)) + vote (dot (cross v0 v1) (sub pt p0))
    + vote (dot (cross v4 v2) (sub pt p1)) + vote (dot (cross v1 v3) (sub pt p0))
  count == 4 || count == -4

/-- Rational `measure` of a triangle, `geometry/geometry_simplicial.hpp:347-368`. -/
def ratMeasure2 (p0 p1 p2 : P2 K) (signed : Bool) : K :=
  let area := (p1.x - p0.x) * (p2.y - p0.y) - (p2.x - p0.x) * (p1.y - p0.y)
  if signed then area else |area|

/-- Rational `measure` of a tetrahedron, `geometry/geometry_simplicial.hpp:273-292`. -/
def ratMeasure3 (p0 p1 p2 p3 : P3 K) (signed : Bool) : K :=
  let vol := dot (sub p1 p0) (cross (sub p2 p0) (sub p3 p0)) / 6
  if signed then vol else |vol|

/-- `volume_tetrahedron_kahan`, `common/simplicial_formula.hpp:122-131`. -/
def volume (p0 p1 p2 p3 : P3 K) : K := |dot (sub p1 p0) (cross (sub p2 p0) (sub p3 p0))| / 6

/-- Floating-point `measure` of a tetrahedron, `geometry/geometry_simplicial.hpp:249-271`. -/
def measure3 (p0 p1 p2 p3 : P3 K) (signed : Bool) : Option K :=
  let vol := volume p0 p1 p2 p3
  if signed then
    let vol2 := dot (sub p1 p0) (cross (sub p2 p0) (sub p3 p0)) / 6
    if |vol2| = 0 then none else some (vol2 / |vol2| * vol)
  else some vol

end field

/-- `norm()` in space. -/
noncomputable def norm (v : P3 ℝ) : ℝ := √(v.x * v.x + v.y * v.y + v.z * v.z)

/-- `area_triangle_kahan` in space, `common/simplicial_formula.hpp:46-63`. -/
noncomputable def area3 (p0 p1 p2 : P3 ℝ) : ℝ :=
  Polygon.kahanLengths (norm (sub p1 p0)) (norm (sub p2 p0)) (norm (sub p2 p1))

/-- Floating-point `measure` of a triangle, `geometry/geometry_simplicial.hpp:322-345`. -/
noncomputable def measure2 (p0 p1 p2 : P2 ℝ) (signed : Bool) : Option ℝ :=
  let area := Polygon.triMeasure p0 p1 p2
  if signed then
    let area2 := (p1.x - p0.x) * (p2.y - p0.y) - (p2.x - p0.x) * (p1.y - p0.y)
    if |area2| = 0 then none else some (area2 / |area2| * area)
  else some area

/-- Barycenter of a triangle, `geometry/geometry_all.hpp:118-126`. -/
noncomputable def bary2 (p0 p1 p2 : P2 ℝ) : P2 ℝ := ⟨(p0.x + p1.x + p2.x) / 3, (p0.y + p1.y + p2.y) / 3⟩

/-- Barycenters of a triangle in space and of a tetrahedron, `geometry/geometry_all.hpp:118-126`. -/
noncomputable def bary3 (p0 p1 p2 : P3 ℝ) : P3 ℝ :=
  ⟨(p0.x + p1.x + p2.x) / 3, (p0.y + p1.y + p2.y) / 3, (p0.z + p1.z + p2.z) / 3⟩
/-- See `bary3`. -/
noncomputable def bary4 (p0 p1 p2 p3 : P3 ℝ) : P3 ℝ :=
  ⟨(p0.x + p1.x + p2.x + p3.x) / 4, (p0.y + p1.y + p2.y + p3.y) / 4, (p0.z + p1.z + p2.z + p3.z) / 4⟩

/-- `normal(msh, cl, fc)` in 3D, `geometry/geometry_all.hpp:406-428`, for a face with first three points
`a b c`, face barycenter `fb` and cell barycenter `cb`. -/
noncomputable def normal (cb fb a b c : P3 ℝ) : P3 ℝ :=
  let n := cross (sub b a) (sub c b)
  if dot n (sub fb cb) < 0 then ⟨-n.x / norm n, -n.y / norm n, -n.z / norm n⟩
  else ⟨n.x / norm n, n.y / norm n, n.z / norm n⟩

/-- Normal to a face of a triangle. -/
noncomputable def triNormal (a b opp : P2 ℝ) : ℝ × ℝ := Polygon.normal (bary2 a b opp) a b
/-- Normal to a face of a tetrahedron. -/
noncomputable def tetNormal (a b c opp : P3 ℝ) : P3 ℝ := normal (bary4 a b c opp) (bary3 a b c) a b c

end Verif.Simplex
