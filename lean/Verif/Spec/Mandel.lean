import Mathlib.Analysis.Real.Sqrt
/-!
Matrix-vector products for matrices stored row by row, and symmetric matrices.
-/
namespace Verif.Spec

/-- Entry `a` of the product of the `n × n` matrix stored row by row in `m` and the vector `x`. -/
noncomputable def rowTimes (n : Nat) (m : Nat → ℝ) (x : List ℝ) (a : Nat) : ℝ :=
  ((List.range n).map fun b => m (n * a + b) * x.getD b 0).sum

/-- The product. -/
noncomputable def matTimes (n : Nat) (m : Nat → ℝ) (x : List ℝ) : List ℝ := (List.range n).map (rowTimes n m x)

/-- A symmetric matrix. -/
def Symm {D : Nat} (M : Fin D → Fin D → ℝ) : Prop := ∀ i j, M i j = M j i

end Verif.Spec
