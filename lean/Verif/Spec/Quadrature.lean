import Mathlib.Algebra.Polynomial.Eval.Degree
import Mathlib.Data.Real.Basic
import Mathlib.Algebra.BigOperators.Group.Finset.Basic
/-!
What a quadrature rule is expected to do: the sum over a rule, the size of a polynomial, and tables of
floating-point numbers close to tables of decimal literals.
-/
namespace Verif.Spec
open Polynomial

/-- Value of a quadrature rule (points with weights) on a function. -/
def quadSum {X : Type} (qps : List (X × ℝ)) (f : X → ℝ) : ℝ := (qps.map fun q => q.2 * f q.1).sum

/-- Sum of the absolute values of the coefficients up to degree `d`. -/
def coeffSum (d : ℕ) (r : ℝ[X]) : ℝ := ∑ k ∈ Finset.range (d + 1), |r.coeff k|

/-- Half an ulp of a double below 2. -/
noncomputable def halfUlp : ℝ := 1 / 2 ^ 53

/-- The rule `s` is stored as the rule `t`: every node and weight moves by at most `halfUlp` and nodes stay in
`[-1, 1]`. Rounding decimals to nearest double does this. -/
def Stored (s t : List (ℝ × ℝ)) : Prop :=
  List.Forall₂ (fun x y => |y.1 - x.1| ≤ halfUlp ∧ |y.2 - x.2| ≤ halfUlp ∧ |y.1| ≤ 1) s t

/-- Every rule of a table is stored. -/
def StoredAll (s t : List (List (ℝ × ℝ))) : Prop := List.Forall₂ Stored s t

/-- The affine map of `[-1, 1]` on `[a, b]`, as a polynomial. -/
noncomputable def aff (a b : ℝ) : ℝ[X] := C ((a + b) / 2) + C ((b - a) / 2) * X

/-- The point of the segment `a b` with parameter `s ∈ [-1, 1]`. -/
noncomputable def onSegment {n : ℕ} (a b : Fin n → ℝ) (s : ℝ) : Fin n → ℝ :=
  fun i => (a i + b i) / 2 + (b i - a i) / 2 * s

end Verif.Spec
