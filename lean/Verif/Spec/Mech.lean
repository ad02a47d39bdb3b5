import Verif.Spec.Mandel
import Mathlib.Analysis.Calculus.Deriv.Basic
import Mathlib.Algebra.BigOperators.Fin
/-!
Notions of continuum mechanics, in index notation.
-/
namespace Verif.Spec
open Finset

variable {D : Nat}

/-- The linearized strain of a displacement gradient. -/
noncomputable def symGrad (G : Fin D → Fin D → ℝ) : Fin D → Fin D → ℝ := fun i j => (G i j + G j i) / 2

/-- `F x`. -/
def apply (F : Fin D → Fin D → ℝ) (x : Fin D → ℝ) : Fin D → ℝ := fun i => ∑ j, F i j * x j

/-- `|x|^2`. -/
def normSq (x : Fin D → ℝ) : ℝ := ∑ i, x i * x i

/-- `x . A x`. -/
def quadForm (A : Fin D → Fin D → ℝ) (x : Fin D → ℝ) : ℝ := ∑ i, ∑ j, x i * A i j * x j

/-- The double contraction. -/
def ddot (A B : Fin D → Fin D → ℝ) : ℝ := ∑ i, ∑ j, A i j * B i j

/-- The path `A` has velocity `H` at time `t`. -/
def Velocity (A : ℝ → Fin D → Fin D → ℝ) (H : Fin D → Fin D → ℝ) (t : ℝ) : Prop :=
  ∀ i j, HasDerivAt (fun s => A s i j) (H i j) t

/-- `P` is the derivative of the energy `W` at `F`: along every differentiable path through `F`, `W` grows at the rate
`P : F'`. -/
def IsStressOf (W : (Fin D → Fin D → ℝ) → ℝ) (P F : Fin D → Fin D → ℝ) : Prop :=
  ∀ (A : ℝ → Fin D → Fin D → ℝ) (H : Fin D → Fin D → ℝ) (t : ℝ), A t = F → Velocity A H t →
    HasDerivAt (fun s => W (A s)) (ddot P H) t

/-- `L` is the derivative of the matrix valued function `P` at `F`, for velocities in `V`. -/
def IsTangentOn (V : (Fin D → Fin D → ℝ) → Prop) (P : (Fin D → Fin D → ℝ) → Fin D → Fin D → ℝ)
    (L : (Fin D → Fin D → ℝ) → Fin D → Fin D → ℝ) (F : Fin D → Fin D → ℝ) : Prop :=
  ∀ (A : ℝ → Fin D → Fin D → ℝ) (H : Fin D → Fin D → ℝ) (t : ℝ), A t = F → V H → Velocity A H t →
    Velocity (fun s => P (A s)) (L H) t

end Verif.Spec
