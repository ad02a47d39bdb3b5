import Mathlib.Data.Matrix.Mul
import Mathlib.Data.Real.Basic
/-!
The functional minimised by the solution of a symmetric positive definite system.
-/
namespace Verif.Spec.ConjGrad
open Matrix

variable {n : Nat}

/-- The energy functional minimised by the solution. -/
noncomputable def energy (A : Matrix (Fin n) (Fin n) ℝ) (b x : Fin n → ℝ) : ℝ := (1 / 2) * (x ⬝ᵥ (A *ᵥ x)) - b ⬝ᵥ x

end Verif.Spec.ConjGrad
