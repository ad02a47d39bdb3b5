import Mathlib.Data.Real.Basic
import Mathlib.Data.Matrix.Mul
/-! What a solver for symmetric eigenvalue problems returns. Independent of the model. -/
namespace Verif.Spec

/-- The columns of `V` are orthonormal eigenvectors of `S` for the numbers `lam`. -/
structure IsSpectral {n : Nat} (S V : Matrix (Fin n) (Fin n) ℝ) (lam : Fin n → ℝ) : Prop where
  vec : ∀ i k, ∑ j, S i j * V j k = V i k * lam k
  row : ∀ i j, ∑ k, V i k * V j k = if i = j then 1 else 0
  col : ∀ k l, ∑ i, V i k * V i l = if k = l then 1 else 0

/-- `sol` solves every symmetric eigenvalue problem. -/
def SolvesSymmetric (sol : (n : Nat) → Matrix (Fin n) (Fin n) ℝ → Matrix (Fin n) (Fin n) ℝ × (Fin n → ℝ)) : Prop :=
  ∀ n S, (∀ i j, S i j = S j i) → IsSpectral S (sol n S).1 (sol n S).2

end Verif.Spec
