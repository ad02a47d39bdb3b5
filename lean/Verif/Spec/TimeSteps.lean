import Mathlib.Algebra.Order.Field.Basic
/-!
Partitions of an interval.
-/
namespace Verif.Spec
variable {K : Type} [Field K] [LinearOrder K]

/-- The intervals, in order, follow each other without gaps from `a` to `b`, each of positive length. -/
def Covers : K → K → List (K × K) → Prop
  | a, b, [] => a = b
  | a, b, s :: l => s.1 = a ∧ s.1 < s.2 ∧ Covers s.2 b l

/-- A list of stages (end time, number of steps): increasing positive end times and at least one step each. -/
def Increasing : K → List (K × Nat) → Prop
  | _, [] => True
  | a, s :: l => a < s.1 ∧ 0 < s.2 ∧ Increasing s.1 l

end Verif.Spec
