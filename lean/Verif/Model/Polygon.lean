import Verif.Spec.Points
import Mathlib.Analysis.Real.Sqrt
/-!
Polygons: `geometry/geometry_all.hpp`, `geometry/geometry_generic.hpp`,
`geometry/geometry_generic_triangulations.hpp`, `quadratures/bits/quad_phys_generic.hpp`.

A cell is the list of its points in storage order, as returned by `points(msh, cl)`. Coordinates are exact.
The normal of a side of length zero (a division by zero) is not treated: theorems about normals assume
distinct end points.
-/
namespace Verif.Polygon
open Verif.Spec

variable {K : Type}

section field
variable [Field K] [LinearOrder K] [IsStrictOrderedRing K]

/-- `pts[i]`; every index below is smaller than `pts.size()` by its loop bound or by `%`. -/
def rd (pts : List (P2 K)) (i : Nat) : P2 K := pts.getD i ⟨0, 0⟩

/-- 2D `is_inside`, `geometry/geometry_all.hpp:285-311`: the second end point is `pts[i % pts.size()]`. -/
def isInside (pts : List (P2 K)) (pt : P2 K) : Bool :=
  (List.range pts.length).all fun i =>
    let p0 := rd pts i
    let p1 := rd pts (i % pts.length)
    !decide ((pt.y - p0.y) * (p1.x - p0.x) - (pt.x - p0.x) * (p1.y - p0.y) < 0)

/-- `is_convex`, `geometry/geometry_generic.hpp:129-154`. -/
def isConvex (pts : List (P2 K)) : Bool :=
  if pts.length = 3 then true
  else (List.range pts.length).all fun i =>
    let p0 := rd pts i
    let p1 := rd pts ((i + 1) % pts.length)
    let p2 := rd pts ((i + 2) % pts.length)
    let v0x := p1.x - p0.x
    let v0y := p1.y - p0.y
    let v1x := p2.x - p1.x
    let v1y := p2.y - p1.y
    !decide (v0x * v1y - v0y * v1x < 0)

/-- The centre `accumulate(pts)/n` of `geometry_generic_triangulations.hpp:109-110`. -/
def center (pts : List (P2 K)) : P2 K :=
  let s := pts.foldl (fun a p => (⟨a.x + p.x, a.y + p.y⟩ : P2 K)) ⟨0, 0⟩
  ⟨s.x / (pts.length : K), s.y / (pts.length : K)⟩

/-- `triangulate_convex_polygon`, `geometry_generic_triangulations.hpp:101-123`: the triangles
`(p0, p1, p2)`. `integrate_convex` (`quad_phys_generic.hpp:42-63`) visits the same triangles. -/
def fan (pts : List (P2 K)) : List (P2 K × P2 K × P2 K) :=
  (List.range pts.length).map fun i => (rd pts i, rd pts ((i + 1) % pts.length), center pts)

/-- The sums `Cx`, `Cy`, `A` of `barycenter`, `geometry/geometry_generic.hpp:225-243`. -/
def barySums (pts : List (P2 K)) : K × K × K :=
  (List.range pts.length).foldl (fun s i =>
    let p0 := rd pts i
    let p1 := rd pts ((i + 1) % pts.length)
    let d := p0.x * p1.y - p1.x * p0.y
    (s.1 + (p0.x + p1.x) * d, s.2.1 + (p0.y + p1.y) * d, s.2.2 + 1 / 2 * d)) (0, 0, 0)

/-- `barycenter` of a polygon, `geometry/geometry_generic.hpp:225-249`. A polygon of area zero divides by
zero; theorems assume a nonzero area. -/
def barycenter (pts : List (P2 K)) : P2 K :=
  let s := barySums pts
  ⟨s.1 / (6 * s.2.2), s.2.1 / (6 * s.2.2)⟩

end field

/-- `norm()` of a vector of the plane. -/
noncomputable def norm (x y : ℝ) : ℝ := √(x * x + y * y)

/-- `normal(msh, cl, fc)` in 2D, `geometry/geometry_all.hpp:346-367`; `c` is the barycenter of the cell, the
barycenter of the face is the mean of its end points (`:118-126`). -/
noncomputable def normal (c p q : P2 ℝ) : ℝ × ℝ :=
  let nx := -(q.y - p.y)
  let ny := q.x - p.x
  let ox := (p.x + q.x) / 2 - c.x
  let oy := (p.y + q.y) / 2 - c.y
  if nx * ox + ny * oy < 0 then (-nx / norm nx ny, -ny / norm nx ny)
  else (nx / norm nx ny, ny / norm nx ny)

/-- `measure` of a polygon, `geometry/geometry_generic.hpp:207-223`: the cell's points and its faces, each
given by its two points in storage order. -/
noncomputable def measure (pts : List (P2 ℝ)) (fcs : List (P2 ℝ × P2 ℝ)) : ℝ :=
  fcs.foldl (fun tot f =>
    let n := normal (barycenter pts) f.1 f.2
    tot + norm (f.2.x - f.1.x) (f.2.y - f.1.y) *
      ((f.1.x + f.2.x) / 2 * n.1 / 2 + (f.1.y + f.2.y) / 2 * n.2 / 2)) 0

/-- The argument of the square root in `area_triangle_kahan`, `common/simplicial_formula.hpp:54-62`: the three
lengths are sorted first. -/
noncomputable def kahanArg (x y z : ℝ) : ℝ :=
  let a := max (max x y) z
  let b := max (min x y) (min (max x y) z)
  let c := min (min x y) z
  (a + (b + c)) * (c - (a - b)) * (c + (a - b)) * (a + (b - c))

/-- `area_triangle_kahan` from the three lengths, `common/simplicial_formula.hpp:46-63`. -/
noncomputable def kahanLengths (x y z : ℝ) : ℝ := 1 / 4 * √(kahanArg x y z)

/-- `measure` of a triangle of a triangulation, `geometry_generic_triangulations.hpp:23-28`. -/
noncomputable def triMeasure (p0 p1 p2 : P2 ℝ) : ℝ :=
  kahanLengths (norm (p1.x - p0.x) (p1.y - p0.y)) (norm (p2.x - p0.x) (p2.y - p0.y))
    (norm (p2.x - p1.x) (p2.y - p1.y))

end Verif.Polygon
