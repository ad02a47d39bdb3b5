/-!
Spec of adjacency: which cells have a face, stated without any connectivity table.
-/
namespace Verif.Spec

/-- `c'` is another cell having the face `f`. -/
def OtherCell {C F : Type} (cells : List C) (facesOf : C → List F) (c : C) (f : F) (c' : C) : Prop :=
  c' ∈ cells ∧ c' ≠ c ∧ f ∈ facesOf c'

/-- How many times the face `f` occurs in the face lists of the cells. -/
def occurrences {C F : Type} [DecidableEq F] (cells : List C) (facesOf : C → List F) (f : F) : Nat :=
  (cells.flatMap facesOf).count f

end Verif.Spec
