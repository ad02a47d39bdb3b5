import Mathlib.Data.Real.Basic
import Mathlib.Algebra.Order.BigOperators.Group.List
/-!
Polynomials of three variables, given by their terms.
-/
namespace Verif.Spec

/-- A polynomial of three variables: its terms `c x^i y^j z^k`. -/
abbrev Poly3 := List (ℝ × ℕ × ℕ × ℕ)

namespace Poly3

/-- Value. -/
def eval (f : Poly3) (x y z : ℝ) : ℝ := (f.map fun t => t.1 * (x ^ t.2.1 * y ^ t.2.2.1 * z ^ t.2.2.2)).sum

/-- Total degree at most `d`. -/
def DegLE (f : Poly3) (d : ℕ) : Prop := ∀ t ∈ f, t.2.1 + t.2.2.1 + t.2.2.2 ≤ d

/-- `Σ |c| ρ^(i+j+k)`. -/
def size (f : Poly3) (ρ : ℝ) : ℝ := (f.map fun t => |t.1| * ρ ^ (t.2.1 + t.2.2.1 + t.2.2.2)).sum

end Poly3
end Verif.Spec
