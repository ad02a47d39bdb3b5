/-!
`std::sort` with a comparison `lt`. The standard fixes the result only up to the order of equivalent
elements; the model is a stable insertion sort. Where the model is used on elements that are pairwise
different for `lt`, the sorted list is unique and the choice of algorithm does not matter.
-/
namespace Verif.Sort

/-- Insert `x` in front of the first element that is not smaller. -/
def insertBy {α : Type u} (lt : α → α → Bool) (x : α) : List α → List α
  | [] => [x]
  | y :: ys => if lt y x then y :: insertBy lt x ys else x :: y :: ys

/-- `std::sort(begin, end, lt)`. -/
def sortBy {α : Type u} (lt : α → α → Bool) : List α → List α
  | [] => []
  | x :: xs => insertBy lt x (sortBy lt xs)

end Verif.Sort
