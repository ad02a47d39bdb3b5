import Verif.Model.QuadRefine
import Verif.Model.Gauss
/-!
Measures and quadratures of the elements of Cartesian meshes: `geometry/geometry_hexahedral.hpp:252-306`,
`quadratures/bits/quad_phys_cartesian.hpp`.

Real arithmetic. A failing assertion is `ub`.
-/
namespace Verif.CartMeasure
open QuadRefine (Quad Mesh)
open TriRefine (Edge)
open Verif.Spec (P2)

/-- `to_vector().norm()` of a difference of points. -/
noncomputable def dist2 (p q : ℝ × ℝ) : ℝ := Real.sqrt ((q.1 - p.1) ^ 2 + (q.2 - p.2) ^ 2)

/-- The same in three dimensions. -/
noncomputable def dist3 (p q : Fin 3 → ℝ) : ℝ :=
  Real.sqrt ((q 0 - p 0) ^ 2 + (q 1 - p 1) ^ 2 + (q 2 - p 2) ^ 2)

/-- `points(msh, elem)`, `geometry/geometry_hexahedral.hpp:93-109`: dereferencing past the end is undefined. -/
def points {P : Type} (pts : List P) : List Nat → Outcome (List P)
  | [] => .ok []
  | i :: is =>
    match pts[i]? with
    | some p => (points pts is).bind fun ps => .ok (p :: ps)
    | none => .ub "iterator past the end"

/-- `measure` of a 2D cell, `geometry/geometry_hexahedral.hpp:252-263`. -/
noncomputable def cell2 (pts : List (ℝ × ℝ)) : Outcome ℝ :=
  match pts with
  | [p0, p1, p2, _] => .ok (dist2 p0 p1 * dist2 p0 p2)
  | _ => .ub "assert(pts.size() == 4)"

/-- `measure` of a 3D cell, `geometry/geometry_hexahedral.hpp:265-276`: the assertion is the one of the plane. -/
noncomputable def cell3 (pts : List (Fin 3 → ℝ)) : Outcome ℝ :=
  if pts.length ≠ 4 then .ub "assert(pts.size() == 4)"
  else match pts[0]?, pts[1]?, pts[2]?, pts[4]? with
    | some p0, some p1, some p2, some p4 => .ok (dist3 p0 p1 * dist3 p0 p2 * dist3 p0 p4)
    | _, _, _, _ => .ub "index out of range"

/-- `measure` of a 2D face, `geometry/geometry_hexahedral.hpp:287-295`. -/
noncomputable def face2 (pts : List (ℝ × ℝ)) : Outcome ℝ :=
  match pts with
  | [p0, p1] => .ok (dist2 p0 p1)
  | _ => .ub "assert(pts.size() == 2)"

/-- `measure` of a 3D face, `geometry/geometry_hexahedral.hpp:297-307`. -/
noncomputable def face3 (pts : List (Fin 3 → ℝ)) : Outcome ℝ :=
  match pts with
  | [p0, p1, _, p3] => .ok (dist3 p0 p1 * dist3 p0 p3)
  | _ => .ub "assert(pts.size() == 4)"

/-- `faces(msh, cl)` of a hexahedron by its points, `geometry/geometry_hexahedral.hpp:168-187`. -/
def hexFaces (p : Fin 8 → Fin 3 → ℝ) : List (List (Fin 3 → ℝ)) :=
  [[p 0, p 2, p 6, p 4], [p 1, p 3, p 7, p 5], [p 0, p 1, p 3, p 2], [p 4, p 5, p 7, p 6], [p 0, p 4, p 5, p 1],
    [p 2, p 6, p 7, p 3]]

/-- `measure(msh, cl)` on a mesh of the plane. -/
noncomputable def measureCell (m : Mesh ℝ) (t : Quad) : Outcome ℝ :=
  (points m.points [t.a, t.b, t.c, t.d]).bind cell2

/-- `measure(msh, fc)` on a mesh of the plane. -/
noncomputable def measureFace (m : Mesh ℝ) (e : Edge) : Outcome ℝ :=
  (points m.points [e.a, e.b]).bind face2

/-- A point as a pair of coordinates. -/
def toP2 (p : ℝ × ℝ) : P2 ℝ := ⟨p.1, p.2⟩

/-- `integrate(msh, cl, degree)` in two dimensions, `quadratures/bits/quad_phys_cartesian.hpp:44-55`. -/
noncomputable def integrateCell (tab : List (List (ℝ × ℝ))) (m : Mesh ℝ) (t : Quad) (degree : Nat) :
    Outcome (List (P2 ℝ × ℝ)) :=
  (points m.points [t.a, t.b, t.c, t.d]).bind fun
    | [p0, p1, p2, p3] => Quad.tensor2 tab degree (toP2 p0) (toP2 p1) (toP2 p3) (toP2 p2)
    | _ => .ub "assert(pts.size() == 4)"

end Verif.CartMeasure
