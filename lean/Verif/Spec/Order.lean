import Mathlib.Order.Defs.LinearOrder
/-! Specification vocabulary for ordered containers. Independent of the model. -/
namespace Verif.Spec

/-- Strictly increasing list: sorted and without repetitions. -/
def StrictSorted {α : Type} [LT α] (l : List α) : Prop :=
  ∀ i j (hi : i < l.length) (hj : j < l.length), i < j → l[i] < l[j]

/-- Two lists have the same elements. -/
def SameElements {α : Type} (l l' : List α) : Prop := ∀ x, x ∈ l ↔ x ∈ l'

end Verif.Spec
