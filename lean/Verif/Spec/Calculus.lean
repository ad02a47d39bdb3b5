import Mathlib.Analysis.Calculus.FDeriv.Basic
import Mathlib.Analysis.Normed.Module.FiniteDimension
import Mathlib.Data.Matrix.Mul
/-! Differentiability of real functions of several variables. Independent of the model. -/
namespace Verif.Spec
open Matrix

/-- `g` is the gradient of `f` at `x`: `f` is Fréchet differentiable at `x` with derivative
`v ↦ g · v`. -/
def HasGrad {d : Nat} (f : (Fin d → ℝ) → ℝ) (g x : Fin d → ℝ) : Prop :=
  ∃ L : (Fin d → ℝ) →L[ℝ] ℝ, HasFDerivAt f L x ∧ ∀ v, L v = g ⬝ᵥ v

/-- Exponent tuples of total degree at most K. -/
def monomials2 (K : Nat) : Set (Nat × Nat) := {e | e.1 + e.2 ≤ K}
/-- Exponent triples of total degree at most K. -/
def monomials3 (K : Nat) : Set (Nat × Nat × Nat) := {e | e.1 + e.2.1 + e.2.2 ≤ K}
end Verif.Spec
