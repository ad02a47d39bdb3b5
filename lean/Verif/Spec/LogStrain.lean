import Verif.Spec.Mech
import Mathlib.Analysis.Calculus.DSlope
import Mathlib.Analysis.SpecialFunctions.Log.Basic
/-!
The logarithmic strain and its conjugate stress.
-/
namespace Verif.Spec
open Finset

variable {D : Nat}

/-- The scale function of the logarithmic strain: principal strains of the squared stretches. -/
noncomputable def henckyScale (x : ℝ) : ℝ := Real.log x / 2

/-- Divided differences of the scale function, derivatives where arguments coincide. -/
noncomputable def scaleDiff (a b : ℝ) : ℝ := dslope henckyScale a b
noncomputable def scaleDiff2 (a b c : ℝ) : ℝ := dslope (dslope henckyScale a) b c

/-- The columns of `V` are orthonormal eigenvectors of `C` for the eigenvalues `lam`. -/
structure IsEigen (C : Fin D → Fin D → ℝ) (lam : Fin D → ℝ) (V : Fin D → Fin D → ℝ) : Prop where
  orth : ∀ i j, ∑ a, V a i * V a j = if i = j then 1 else 0
  eig : ∀ a i, ∑ b, C a b * V b i = lam i * V a i

/-- What Eigen documents for `SelfAdjointEigenSolver`: orthonormal eigenvectors and increasing eigenvalues. -/
structure IsSolver (solver : (Fin 3 → Fin 3 → ℝ) → (Fin 3 → ℝ) × (Fin 3 → Fin 3 → ℝ)) : Prop where
  eig : ∀ C, Symm C → IsEigen C (solver C).1 (solver C).2
  sorted : ∀ C, Symm C → (solver C).1 0 ≤ (solver C).1 1 ∧ (solver C).1 1 ≤ (solver C).1 2

/-- `S` is the stress conjugate to the deformation when `T` is the stress conjugate to the strain measure `E`: both have
the same power along every path through an `F` in the domain. -/
def IsConjugate (dom : (Fin D → Fin D → ℝ) → Prop) (E T S : (Fin D → Fin D → ℝ) → Fin D → Fin D → ℝ) : Prop :=
  ∀ F, dom F → ∀ (A : ℝ → Fin D → Fin D → ℝ) (H K : Fin D → Fin D → ℝ) (t : ℝ), A t = F → Velocity A H t →
    Velocity (fun s => E (A s)) K t → ddot (S F) H = ddot (T (E F)) K

/-- `Q E Q^T` in index notation. -/
def rotated (Q E : Fin D → Fin D → ℝ) : Fin D → Fin D → ℝ := fun i j => ∑ k, ∑ l, Q i k * E k l * Q j l

/-- An isotropic small strain law: the response commutes with every orthogonal change of frame. -/
def IsIsotropic (T : (Fin D → Fin D → ℝ) → Fin D → Fin D → ℝ) : Prop :=
  ∀ Q, (∀ i j, ∑ k, Q k i * Q k j = if i = j then 1 else 0) → ∀ E, Symm E → T (rotated Q E) = rotated Q (T E)

end Verif.Spec
