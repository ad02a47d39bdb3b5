import Mathlib.Order.Defs.LinearOrder
/-!
What a bounding box is.
-/
namespace Verif.Spec.BoundingBox

variable {K : Type} [LinearOrder K] {d : Nat}

/-- The box `[lo, hi]` contains every point of the list. -/
def Contains (lo hi : Fin d → K) (pts : List (Fin d → K)) : Prop :=
  ∀ p ∈ pts, ∀ i, lo i ≤ p i ∧ p i ≤ hi i

/-- The smallest box containing all the points. -/
def IsBox (lo hi : Fin d → K) (pts : List (Fin d → K)) : Prop :=
  Contains lo hi pts ∧ ∀ lo' hi' : Fin d → K, Contains lo' hi' pts → ∀ i, lo' i ≤ lo i ∧ hi i ≤ hi' i

/-- Componentwise comparable points. -/
def Comparable (p q : Fin d → K) : Prop := (∀ i, p i ≤ q i) ∨ (∀ i, q i ≤ p i)

end Verif.Spec.BoundingBox
