import Mathlib.Data.List.Perm.Basic
/-!
What a consistent renumbering is, without reference to how it is computed.
-/
namespace Verif.Spec

/-- `π` permutes the numbers below `n`. -/
def PermBelow (n : Nat) (π : Nat → Nat) : Prop := ((List.range n).map π).Perm (List.range n)

/-- `new` is `old` moved to the positions `π`, with every entry rewritten by `f`. -/
def Moved {α β : Type} (π : Nat → Nat) (f : Nat → α → β) (old : List (Nat × α)) (new : List β) : Prop :=
  new.length = old.length ∧ ∀ (i : Nat) (x : α), (i, x) ∈ old → new[π i]? = some (f i x)

/-- The last group that contains `i`. -/
def lastGroup (groups : List (Nat × List Nat)) (i : Nat) : Option Nat :=
  (groups.filter fun g => g.2.contains i).getLast?.map Prod.fst

end Verif.Spec
