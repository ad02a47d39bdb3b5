import Verif.Spec.Mech
import Mathlib.Analysis.SpecialFunctions.Sqrt
/-!
One implicit Euler step of von Mises plasticity with isotropic hardening `R` and linear kinematic hardening `K`, stated
through the equations it solves.
-/
noncomputable section
namespace Verif.Spec
open Finset

abbrev M3 := Fin 3 → Fin 3 → ℝ

def tr3 (A : M3) : ℝ := A 0 0 + A 1 1 + A 2 2

def delta : M3 := fun i j => if i = j then 1 else 0

def dev3 (A : M3) : M3 := fun i j => A i j - tr3 A / 3 * delta i j

/-- The von Mises norm of a deviator. -/
def misesNorm (s : M3) : ℝ := Real.sqrt (3 / 2 * ddot s s)

/-- Hooke's law. -/
def hooke (lambda mu : ℝ) (e : M3) : M3 := fun i j => 2 * mu * e i j + lambda * tr3 e * delta i j

/-- The stress relative to the back-stress `K eps_p`. -/
def relStress (lambda mu K : ℝ) (ee ep : M3) : M3 := fun i j => dev3 (hooke lambda mu ee) i j - K * ep i j

/-- `ee`, `ep`, `p` are the elastic strain, the plastic strain and the cumulated plastic strain after an implicit Euler
step that starts with plastic strain `ep0` and cumulated plastic strain `p0` and ends with total strain `eps`:
additive decomposition, yield condition, consistency, and the flow rule with the direction at the end of the step. -/
structure EulerStep (lambda mu K : ℝ) (R : ℝ → ℝ) (ep0 : M3) (p0 : ℝ) (eps ee ep : M3) (p : ℝ) : Prop where
  split : ∀ i j, eps i j = ee i j + ep i j
  yield : misesNorm (relStress lambda mu K ee ep) ≤ R p
  grows : p0 ≤ p
  consistent : (p - p0) * (misesNorm (relStress lambda mu K ee ep) - R p) = 0
  flow : ∃ n : M3, (∀ i j, misesNorm (relStress lambda mu K ee ep) * n i j = 3 / 2 * relStress lambda mu K ee ep i j) ∧
    ∀ i j, ep i j = ep0 i j + (p - p0) * n i j

/-- The line through two points. -/
def lineThrough (a b : ℝ × ℝ) (p : ℝ) : ℝ := a.2 + (b.2 - a.2) / (b.1 - a.1) * (p - a.1)

open Classical in
/-- The piecewise linear function through the points, continued by the first and the last line. -/
def curveAt : List (ℝ × ℝ) → ℝ → ℝ
  | a :: b :: [], p => lineThrough a b p
  | a :: b :: r, p => if p < b.1 then lineThrough a b p else curveAt (b :: r) p
  | _, _ => 0

/-- Point `i`. -/
noncomputable def pt (c : List (ℝ × ℝ)) (i : Nat) : ℝ × ℝ := c.getD i (0, 0)

/-- Slope of segment `i`. -/
noncomputable def slope (c : List (ℝ × ℝ)) (i : Nat) : ℝ := ((pt c (i + 1)).2 - (pt c i).2) / ((pt c (i + 1)).1 - (pt c i).1)

/-- The abscissas increase. -/
def CurveIncreasing (c : List (ℝ × ℝ)) : Prop := c.Pairwise fun a b => a.1 < b.1

/-- The curves for which the step has one solution: distinct abscissas, softening weaker than `3 mu`, positive yield
stress. -/
structure Admissible (mu : ℝ) (c : List (ℝ × ℝ)) : Prop where
  two : 2 ≤ c.length
  size : c.length < 2 ^ 64
  increasing : CurveIncreasing c
  slopes : ∀ i, i + 1 < c.length → 0 < 3 * mu + slope c i
  pos : ∀ p, 0 ≤ p → 0 < curveAt c p

/-- The deviator of a plane strain, within the plane. -/
noncomputable def planarDev (E : Fin 2 → Fin 2 → ℝ) : Fin 2 → Fin 2 → ℝ := fun i j =>
  E i j - if i = j then (E 0 0 + E 1 1) / 2 else 0

/-- The stored energy of a Hencky-Mises material in the plane. -/
noncomputable def henckyEnergy (lambda mu : ℝ) (E : Fin 2 → Fin 2 → ℝ) : ℝ :=
  mu * (ddot (planarDev E) (planarDev E) / 2 + Real.sqrt (1 + ddot (planarDev E) (planarDev E))) +
    (lambda + mu) / 2 * (E 0 0 + E 1 1) ^ 2

end Verif.Spec
