import Mathlib.Algebra.Order.Field.Rat
import Mathlib.Algebra.Order.Field.Power
/-!
Doubles as rational numbers: 53-bit significands, any exponent (no overflow or underflow), and rounding to nearest
with any rule for ties.
-/
namespace Verif.Spec

/-- `x` is a number with a 53-bit significand. -/
def IsDouble (x : ℚ) : Prop := ∃ m : ℤ, ∃ e : ℤ, |m| ≤ 2 ^ 53 ∧ x = m * (2 : ℚ) ^ e

/-- `rd` rounds to a nearest double. -/
def Nearest (rd : ℚ → ℚ) : Prop := ∀ q, IsDouble (rd q) ∧ ∀ d, IsDouble d → |rd q - q| ≤ |d - q|

end Verif.Spec
