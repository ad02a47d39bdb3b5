import Verif.Spec.Mech
import Mathlib.Analysis.SpecialFunctions.Log.Base
import Mathlib.Analysis.SpecialFunctions.Pow.Real
import Mathlib.LinearAlgebra.Matrix.Determinant.Basic
/-!
Stored energies of hyperelastic materials, as documented.
-/
noncomputable section
namespace Verif.Spec

/-- The six documented functions `U(J)`. -/
def docU (type : Nat) (J : ℝ) : ℝ :=
  match type with
  | 1 => Real.log J
  | 2 => J - 1
  | 3 => Real.logb 10 J
  | 4 => 1 - 1 / J
  | 5 => J ^ 2 - 1
  | 6 => Real.sqrt ((J ^ 2 - 1 - 2 * Real.log J) / 2)
  | _ => 0

/-- `lambda / 2 U(J)^2 - mu ln(J)` -/
def volEnergy (lambda mu : ℝ) (U : ℝ → ℝ) (F : Fin 3 → Fin 3 → ℝ) : ℝ :=
  lambda / 2 * U (Matrix.det (Matrix.of F)) ^ 2 - mu * Real.log (Matrix.det (Matrix.of F))

/-- `mu / 2 (tr(F^T F) - 3)` plus the volumetric part. -/
def neoHookean (lambda mu : ℝ) (U : ℝ → ℝ) (F : Fin 3 → Fin 3 → ℝ) : ℝ :=
  mu / 2 * (ddot F F - 3) + volEnergy lambda mu U F

/-- `2 mu / 3^(5/4) tr(F^T F)^(3/4)` plus the volumetric part. -/
def cavitation (lambda mu : ℝ) (U : ℝ → ℝ) (F : Fin 3 → Fin 3 → ℝ) : ℝ :=
  2 * mu / (3 : ℝ) ^ (5 / 4 : ℝ) * ddot F F ^ (3 / 4 : ℝ) + volEnergy lambda mu U F

end Verif.Spec
