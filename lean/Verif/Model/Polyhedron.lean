import Verif.Model.GrundMoeller
/-!
Polyhedral cells of generic meshes: `split_in_raw_triangles`, `split_in_raw_tetrahedra`
(`quadratures/bits/raw_simplices.hpp`), `measure` (`geometry/geometry_generic.hpp`) and `integrate`
(`quadratures/bits/quad_phys_generic.hpp`). A cell is the list of its points and, for each of its faces, the list of
points of the face, as returned by `points`. Coordinates are exact. An exception or undefined behaviour in the rules of
the pieces is that of the whole.
-/
namespace Verif.Polyhedron
open Verif Verif.Spec

/-- What `points(msh, cl)`, `faces(msh, cl)` and `points(msh, fc)` return. -/
structure Cell (K : Type) where
  pts : List (P3 K)
  faces : List (List (P3 K))

section field
variable {K : Type} [Field K]

/-- `barycenter`, `geometry/geometry_all.hpp:118-125`, for a non-empty list of points. -/
def bary (l : List (P3 K)) : P3 K :=
  ⟨(l.map (·.x)).sum / l.length, (l.map (·.y)).sum / l.length, (l.map (·.z)).sum / l.length⟩

/-- The triangles from `c` to the sides `l[i] l[(i+1) % n]` (indices in range), `raw_simplices.hpp:212-218`. -/
def fan (c : P3 K) (l : List (P3 K)) : List (P3 K × P3 K × P3 K) :=
  (List.range l.length).map fun i => (c, l.getD i ⟨0, 0, 0⟩, l.getD ((i + 1) % l.length) ⟨0, 0, 0⟩)

/-- `split_in_raw_triangles` of a face, `raw_simplices.hpp:193-222`. -/
def splitTriangles : List (P3 K) → List (P3 K × P3 K × P3 K)
  | [p0, p1, p2] => [(p0, p1, p2)]
  | [p0, p1, p2, p3] => [(p0, p1, p2), (p2, p3, p0)]
  | l => fan (bary l) l

/-- `split_in_raw_tetrahedra`, `raw_simplices.hpp:305-338`. -/
def splitTets (c : Cell K) : Outcome (List (P3 K × P3 K × P3 K × P3 K)) :=
  match c.pts with
  | [p0, p1, p2, p3] => .ok [(p0, p1, p2, p3)]
  | l => if l.length < 4 then .ub "assert(pts.size() >= 4)" else
      .ok (c.faces.flatMap fun f => (splitTriangles f).map fun t => (bary l, t))

variable [LinearOrder K] [IsStrictOrderedRing K]

/-- Sum of the volumes of tetrahedra. -/
def volumes (ts : List (P3 K × P3 K × P3 K × P3 K)) : K :=
  (ts.map fun t => Simplex.volume t.1 t.2.1 t.2.2.1 t.2.2.2).sum

/-- `measure` of a cell, `geometry_generic.hpp:164-174`. -/
def measure (c : Cell K) : Outcome K := (splitTets c).bind fun ts => .ok (volumes ts)

end field

/-- `for (auto& rs : rss) …` of `integrate_polyhedron`, `quad_phys_generic.hpp:142-150`. -/
noncomputable def tetRules (degree : ℕ) : List (P3 ℝ × P3 ℝ × P3 ℝ × P3 ℝ) → Outcome (List (P3 ℝ × ℝ))
  | [] => .ok []
  | t :: ts => (GrundMoeller.tetra degree t.1 t.2.1 t.2.2.1 t.2.2.2).bind fun q =>
    (tetRules degree ts).bind fun l => .ok (q ++ l)

/-- `integrate` of a cell, `quad_phys_generic.hpp:179-200`. -/
noncomputable def integrate (c : Cell ℝ) (degree : ℕ) : Outcome (List (P3 ℝ × ℝ)) :=
  if degree = 0 then (measure c).bind fun v => .ok [(bary c.pts, v)]
  else if c.pts.length < 4 then .throws "A 3D cell cannot have less than four points."
  else (splitTets c).bind fun ts => tetRules degree ts

end Verif.Polyhedron
