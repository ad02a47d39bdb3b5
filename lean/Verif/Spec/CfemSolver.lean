import Verif.Model.CfemSolver
import Verif.Spec.Cfem
import Verif.Spec.HhoLocal
/-!
Specification vocabulary for the first-order finite element program: continuous piecewise affine functions given by
their values at the points, their gradients, energy and load.
-/
namespace Verif.Spec.P1
open Verif.CfemSolver

/-- A point by number. -/
noncomputable def pt (m : Mesh) (i : Nat) : P2 ℝ := m.points.getD i ⟨0, 0⟩

/-- Ids in range and triangles of positive area. -/
structure Ok (m : Mesh) : Prop where
  cell : ∀ t ∈ m.cells, ∀ a, t a < m.points.length
  area : ∀ t ∈ m.cells, turn (pt m (t 0)) (pt m (t 1)) (pt m (t 2)) ≠ 0
  face : ∀ f ∈ m.bfaces, f.1 < m.points.length ∧ f.2 < m.points.length

/-- End of a boundary face. -/
def OnBoundary (m : Mesh) (i : Nat) : Prop := ∃ f ∈ m.bfaces, i = f.1 ∨ i = f.2

/-- Slopes of the affine function with values `u0`, `u1`, `u2` at the vertices. -/
noncomputable def slopes (p0 p1 p2 : P2 ℝ) (u0 u1 u2 : ℝ) : ℝ × ℝ :=
  ((u0 * (p1.y - p2.y) + u1 * (p2.y - p0.y) + u2 * (p0.y - p1.y)) / turn p0 p1 p2,
    (u0 * (p2.x - p1.x) + u1 * (p0.x - p2.x) + u2 * (p1.x - p0.x)) / turn p0 p1 p2)

/-- Gradient in a cell. -/
noncomputable def gradIn (m : Mesh) (t : Fin 3 → Nat) (u : Nat → ℝ) : ℝ × ℝ :=
  slopes (pt m (t 0)) (pt m (t 1)) (pt m (t 2)) (u (t 0)) (u (t 1)) (u (t 2))

/-- Center of gravity of a cell. -/
noncomputable def center (m : Mesh) (t : Fin 3 → Nat) : P2 ℝ :=
  ⟨((pt m (t 0)).x + (pt m (t 1)).x + (pt m (t 2)).x) / 3, ((pt m (t 0)).y + (pt m (t 1)).y + (pt m (t 2)).y) / 3⟩

/-- Mean value at the vertices, which is the value at the center. -/
noncomputable def mean (u : Nat → ℝ) (t : Fin 3 → Nat) : ℝ := (u (t 0) + u (t 1) + u (t 2)) / 3

/-- `∫ eps grad u · grad v`, with the coefficient frozen at the centers. -/
noncomputable def energy (m : Mesh) (eps : P2 ℝ → ℝ) (u v : Nat → ℝ) : ℝ :=
  (m.cells.map fun t => triInt (pt m (t 0)) (pt m (t 1)) (pt m (t 2)) fun _ => eps (center m t) *
    ((gradIn m t u).1 * (gradIn m t v).1 + (gradIn m t u).2 * (gradIn m t v).2)).sum

/-- `∫ f v`, with the integrand frozen at the centers. -/
noncomputable def loadOf (m : Mesh) (f : P2 ℝ → ℝ) (v : Nat → ℝ) : ℝ :=
  (m.cells.map fun t => triInt (pt m (t 0)) (pt m (t 1)) (pt m (t 2)) fun _ => f (center m t) * mean v t).sum

/-- Solution of the discrete problem. -/
structure Solves (m : Mesh) (eps f : P2 ℝ → ℝ) (u : Nat → ℝ) : Prop where
  boundary : ∀ i, OnBoundary m i → u i = 0
  weak : ∀ v : Nat → ℝ, (∀ i, OnBoundary m i → v i = 0) → energy m eps u v = loadOf m f v

/-- A point that a chain of cells links to the boundary. -/
inductive Linked (m : Mesh) : Nat → Prop
  | boundary {i : Nat} : OnBoundary m i → Linked m i
  | step {t : Fin 3 → Nat} (a b : Fin 3) : t ∈ m.cells → Linked m (t a) → Linked m (t b)

end Verif.Spec.P1
