import Mathlib.Order.Defs.LinearOrder
import Verif.Model.Outcome
/-!
`bounding_box`, `mesh/mesh.hpp:1014-1062`. A point of dimension `d` is a function on `Fin d`; coordinates
are linearly ordered (no NaN). `ndebug` selects whether `assert` is compiled out; a failing assert, and
reading the first point of an empty list, are `ub`.
-/
namespace Verif.BoundingBox

variable {K : Type} [LinearOrder K] {d : Nat}

/-- The flags `lt` and `gt` of one point, `mesh/mesh.hpp:1040-1047`. -/
def ltFlag (lo cur : Fin d → K) : Bool := (List.finRange d).any fun i => decide (cur i < lo i)
/-- See `ltFlag`. -/
def gtFlag (hi cur : Fin d → K) : Bool := (List.finRange d).any fun i => decide (hi i < cur i)

/-- The loop over the remaining points, `mesh/mesh.hpp:1036-1051`. -/
def loop (ndebug : Bool) : List (Fin d → K) → (Fin d → K) → (Fin d → K) → Outcome ((Fin d → K) × (Fin d → K))
  | [], lo, hi => .ok (lo, hi)
  | p :: ps, lo, hi =>
    if ndebug = false ∧ ltFlag lo p = gtFlag hi p then .ub "assert"
    else loop ndebug ps (if ltFlag lo p then p else lo) (if gtFlag hi p then p else hi)

/-- `compute`, `mesh/mesh.hpp:1031-1052`. -/
def compute (ndebug : Bool) (pts : List (Fin d → K)) : Outcome ((Fin d → K) × (Fin d → K)) :=
  match pts with
  | [] => .ub "dereferencing end"
  | p :: ps => loop ndebug ps p p

end Verif.BoundingBox
