import Mathlib.Analysis.Real.Sqrt
import Mathlib.Algebra.BigOperators.Group.Finset.Basic
/-!
Bingham's law and its energy, for coefficients in an orthonormal basis of tensors.
-/
noncomputable section
namespace Verif.Spec.Bingham
open Finset

/-- Scalar product of the first `s` entries. -/
def ip (s : Nat) (a b : Nat → ℝ) : ℝ := ∑ i ∈ range s, a i * b i

/-- Euclidean norm of the first `s` entries. -/
def nrm (s : Nat) (a : Nat → ℝ) : ℝ := Real.sqrt (ip s a a)

/-- Bingham's law: viscosity `mu`, plastic bound `c`, stress `sigma`, strain rate `g`. Where there is flow, the stress is the
viscous stress plus a part of norm `c` along the rate; otherwise it is at most `b`. -/
def Law (mu c b : ℝ) (s : Nat) (sigma g : Nat → ℝ) : Prop :=
  ((∀ i < s, g i = 0) → nrm s sigma ≤ b) ∧
  (¬ (∀ i < s, g i = 0) → ∀ i < s, sigma i = 2 * mu * g i + c * g i / nrm s g)

/-- What the auxiliary rate of a cell minimizes. -/
def energy (mu alpha c : ℝ) (s : Nat) (th g : Nat → ℝ) : ℝ :=
  (mu + alpha) * ip s g g + c * nrm s g - ip s th g

/-- Bilinear form of `n` unknowns. -/
def form (n : Nat) (A : Nat → Nat → ℝ) (u v : Nat → ℝ) : ℝ := ∑ i ∈ range n, ∑ j ∈ range n, v i * A i j * u j

/-- Reconstructed rate of strain of the unknowns of a cell. -/
def strain (n : Nat) (G : Nat → Nat → ℝ) (v : Nat → ℝ) : Nat → ℝ := fun i => ∑ j ∈ range n, G i j * v j

/-- Balance of momentum without load, tested with the velocities `W`: `N` cells of measures `w`, with `s` components of stress
and `n` unknowns of velocity. -/
def Balance (N : Nat) (w : Nat → ℝ) (s n : Nat → Nat) (G stab : Nat → Nat → Nat → ℝ) (mu : ℝ) (W : (Nat → Nat → ℝ) → Prop)
    (u sig : Nat → Nat → ℝ) : Prop :=
  ∀ v, W v → ∑ T ∈ range N, (w T * ip (s T) (sig T) (strain (n T) (G T) (v T)) + 2 * mu * form (n T) (stab T) (u T) (v T)) = 0

/-- Squared norm of a field of tensors. -/
def sq (N : Nat) (w : Nat → ℝ) (s : Nat → Nat) (a : Nat → Nat → ℝ) : ℝ := ∑ T ∈ range N, w T * ip (s T) (a T) (a T)

/-- The norm is above the bound `c` by a factor of at most `1 + 10⁻⁶`. -/
def Above (c : ℝ) (s : Nat) (th : Nat → ℝ) : Prop := c < nrm s th ∧ nrm s th ≤ (1 + 1 / 10 ^ 6) * c

end Verif.Spec.Bingham
