import Mathlib.Data.Real.Basic
/-! The Legendre polynomials by their three-term recurrence. Independent of the model. -/
namespace Verif.Spec

/-- `(n+1) P_{n+1} = (2n+1) x P_n - n P_{n-1}`. -/
noncomputable def legendre (x : ℝ) : Nat → ℝ
  | 0 => 1
  | 1 => x
  | n + 2 => ((2 * n + 3) * x * legendre x (n + 1) - (n + 1) * legendre x n) / (n + 2)

end Verif.Spec
