import Verif.Model.Lookup
/-!
What it means for the faces of a cell to be found in a mesh (the search itself is the model's).
-/
namespace Verif.Spec

/-- The search for `f` in the container `store` succeeds and points at an entry equal to `f`. -/
def Found (store : List (List Nat)) (f : List Nat) : Prop :=
  ∃ i : Nat, Lookup.lookup store f = .ok (Ident.Ident.mk' i) ∧ store[i]? = some f

/-- Every face in the list is found. -/
def AllFound (store fs : List (List Nat)) : Prop := ∀ f ∈ fs, Found store f

end Verif.Spec
