import Verif.Model.Outcome
/-!
Comparison of elements: `generic_element` (`geometry/element_generic.hpp`) and the polytopes with limited
storage (`geometry/element_polytopes.hpp`).
-/
namespace Verif.Elements

/-- `generic_element::operator<`, `geometry/element_generic.hpp:186-189`: lexicographic order of the
vectors of sub-element identifiers. -/
def lt : List Nat → List Nat → Bool
  | _, [] => false
  | [], _ :: _ => true
  | a :: as, b :: bs => if a < b then true else if b < a then false else lt as bs

/-- `generic_element::operator==`, `geometry/element_generic.hpp:191-195`: `std::equal` with three
iterators visits the whole first vector and reads the second without knowing its length. -/
def eq : List Nat → List Nat → Outcome Bool
  | [], _ => .ok true
  | _ :: _, [] => .ub "std::equal reads past the end of the second vector"
  | a :: as, b :: bs => if a = b then eq as bs else .ok false

/-- A polytope with limited storage, `geometry/element_polytopes.hpp:260-276`: an array of `N` slots of
which the first `actual` are set. `garbage` is what the uninitialised slots happen to contain. -/
structure Limited where
  slots : List Nat
  actual : Nat
  deriving Repr, DecidableEq

/-- Constructor from a list, `geometry/element_polytopes.hpp:270-276`. -/
def Limited.make (n : Nat) (l : List Nat) (garbage : List Nat) : Outcome Limited :=
  if 3 ≤ l.length ∧ l.length ≤ n then .ok ⟨l ++ garbage.take (n - l.length), l.length⟩
  else .ub "assert on the number of points"

/-- `point_identifiers()`, `geometry/element_polytopes.hpp:290-295`. -/
def Limited.points (p : Limited) : List Nat := p.slots.take p.actual

/-- `operator==`, `geometry/element_polytopes.hpp:302-305`: compares all slots. -/
def Limited.eq (p q : Limited) : Bool := p.slots == q.slots

/-- `operator<`, `geometry/element_polytopes.hpp:297-300`. -/
def Limited.lt (p q : Limited) : Bool := Verif.Elements.lt p.slots q.slots

end Verif.Elements
