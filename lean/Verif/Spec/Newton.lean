import Mathlib.Algebra.Order.Field.Basic
import Mathlib.Algebra.BigOperators.Group.List.Basic
/-!
Newmark's scheme, and the number of attempts needed for a step that may be halved.
-/
namespace Verif.Spec
variable {K : Type} [Field K]

/-- Acceleration of Newmark's scheme at the end of a step of length `dt` from `(u, v, a)` to the displacement `u'`. -/
def newmarkAcce (beta dt u v a u' : K) : K :=
  (u' - u) / (beta * dt * dt) - v / (beta * dt) - (1 - 2 * beta) / (2 * beta) * a

/-- Velocity of Newmark's scheme at the end of the step, for the new acceleration `a'`. -/
def newmarkVelo (gamma dt v a a' : K) : K := v + dt * ((1 - gamma) * a + gamma * a')

/-- Number of attempts, at most, for a step that may be halved `d` more times. -/
def attempts (d : Nat) : Nat := 2 ^ (d + 1) - 1

end Verif.Spec
