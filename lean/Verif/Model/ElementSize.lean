import Mathlib.Analysis.Real.Sqrt
import Mathlib.Data.Matrix.Mul
import Verif.Model.Bases
import Verif.Model.Outcome
/-!
Sizes of elements and the local coordinates of the scaled monomial bases: `geometry/geometry_all.hpp:150-272`
and `bases/bases_all.hpp:49-260`. Coordinates are exact; a point of dimension `d` is a function on `Fin d`.
-/
namespace Verif.ElementSize

/-- The index pairs `i < j` in the order of the double loops, `geometry/geometry_all.hpp:166-169`. -/
def pairs {α : Type} : List α → List (α × α)
  | [] => []
  | a :: l => l.map (fun b => (a, b)) ++ pairs l

variable {d : Nat}

/-- `to_vector().norm()`. -/
noncomputable def norm (v : Fin d → ℝ) : ℝ := √(∑ i, v i * v i)

/-- `diameter`, `geometry/geometry_all.hpp:159-172`. -/
noncomputable def diameter (pts : List (Fin d → ℝ)) : ℝ :=
  (pairs pts).foldl (fun diam p => max (norm (p.1 - p.2)) diam) 0

section field
variable {K : Type} [Field K] [LinearOrder K] [IsStrictOrderedRing K]

/-- `diameters`, `geometry/geometry_all.hpp:175-194`. -/
def diameters (pts : List (Fin d → K)) : Fin d → K :=
  (pairs pts).foldl (fun r p k => max (r k) |(p.1 - p.2) k|) 0

/-- `bb_barycenter`, `geometry/geometry_all.hpp:197-214`: the first point is read unconditionally. -/
def bbBarycenter (pts : List (Fin d → K)) : Outcome (Fin d → K) :=
  match pts with
  | [] => .ub "pts[0] of an empty vector"
  | p :: l =>
    let r := l.foldl (fun r q => ((fun j => min (r.1 j) (q j), fun j => max (r.2 j) (q j)) :
      (Fin d → K) × (Fin d → K))) (p, p)
    .ok fun j => (r.1 j + r.2 j) / 2

/-- One pass of the loop of `diameter_boundingbox`, `geometry/geometry_all.hpp:242-263`. -/
def boxStep (axes : Matrix (Fin d) (Fin d) K) (r : (Fin d → K) × (Fin d → K)) (pt : Fin d → K) :
    (Fin d → K) × (Fin d → K) :=
  let bp := Matrix.mulVec axes.transpose pt
  (fun i => if bp i < r.1 i then bp i else r.1 i, fun i => if bp i > r.2 i then bp i else r.2 i)

/-- `diameter_boundingbox`, `geometry/geometry_all.hpp:225-272`; `big` is `numeric_limits<T>::max()`. -/
def boxLengths (big : K) (axes : Matrix (Fin d) (Fin d) K) (pts : List (Fin d → K)) : Fin d → K :=
  let r := pts.foldl (boxStep axes) (fun _ => big, fun _ => -big)
  fun i => |r.2 i - r.1 i|

/-- Local coordinates of the cell bases: constructor and `scaling_point`, `bases/bases_all.hpp:74-98, 132-149`.
The barycenter and the axes are given. -/
def localCoord (big : K) (axes : Matrix (Fin d) (Fin d) K) (bar : Fin d → K) (pts : List (Fin d → K))
    (pt : Fin d → K) : Fin d → K :=
  Bases.scalingPoint (Bases.passageMatrix axes (boxLengths big axes pts)) bar pt

end field

/-- Local coordinate of the face bases in 2D: constructor and `scaling_point`, `bases/bases_all.hpp:191-249`,
for a face with points `p0 p1`. -/
noncomputable def faceCoord (p0 p1 pt : Fin 2 → ℝ) : ℝ :=
  let bar : Fin 2 → ℝ := fun i => (p0 i + p1 i) / 2
  let ax : Fin 2 → ℝ := fun i => (bar i - p0 i) / norm (bar - p0)
  let len := diameter [p0, p1]
  ∑ i, ax i * (2 / len) * (pt i - bar i)

end Verif.ElementSize
