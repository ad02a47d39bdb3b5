import Verif.Model.Ident
/-!
Searching and canonicalising sorted element containers:
`mesh/mesh.hpp` (find_element_id, lookup, offset, operator[]) and `loaders/loader_utils.hpp` (sort_uniq).

Simplification: containers are `List α` with a computable strict order `<` (the element's `operator<`).
-/
namespace Verif.Lookup

variable {α : Type} [LT α] [DecidableLT α]

/-- Comparison made by `std::lower_bound` at index `i`: `v[i] < x`. Indices past the end are never
inspected (see `lowerBound_reads_in_range`). -/
def below (v : List α) (x : α) (i : Nat) : Bool :=
  match v[i]? with
  | some y => decide (y < x)
  | none => false

/-- The halving loop of libstdc++'s `std::lower_bound` on the range `[first, first+len)`;
called at `mesh/mesh.hpp:188,951,962`. -/
def lowerBoundLoop (p : Nat → Bool) (first len : Nat) : Nat :=
  if h : len = 0 then first
  else
    let half := len / 2
    let mid := first + half
    if p mid then lowerBoundLoop p (mid + 1) (len - half - 1)
    else lowerBoundLoop p first half
termination_by len
decreasing_by all_goals omega

/-- Indices inspected by the loop, in order. -/
def lowerBoundReads (p : Nat → Bool) (first len : Nat) : List Nat :=
  if h : len = 0 then []
  else
    let half := len / 2
    let mid := first + half
    mid :: (if p mid then lowerBoundReads p (mid + 1) (len - half - 1)
            else lowerBoundReads p first half)
termination_by len
decreasing_by all_goals omega

/-- `std::lower_bound(begin, end, x)` as an offset from `begin`. -/
def lowerBound (v : List α) (x : α) : Nat := lowerBoundLoop (below v x) 0 v.length

/-- `find_element_id`, `mesh/mesh.hpp:184-197`: the pair (found, identifier). -/
def findElementId (v : List α) (x : α) : Bool × Ident.Ident Nat :=
  let i := lowerBound v x
  match v[i]? with
  | some y => if ¬ (x < y) then (true, Ident.Ident.mk' i) else (false, Ident.Ident.invalid 0)
  | none => (false, Ident.Ident.invalid 0)

/-- `mesh::lookup`, `mesh/mesh.hpp:608-628` (cells and faces are identical). -/
def lookup (v : List α) (x : α) : Outcome (Ident.Ident Nat) :=
  let ci := findElementId v x
  if !ci.1 then .throws "not present in mesh" else .ok ci.2

/-- `offset`, `mesh/mesh.hpp:947-956` and `958-967`: no test that the element found is the one
asked for. -/
def offset (v : List α) (x : α) : Outcome Nat :=
  let i := lowerBound v x
  if i = v.length then .throws "not found: this is likely a bug" else .ok i

/-- `mesh::operator[]`, `mesh/mesh.hpp:630-633`; the failed `assert` is undefined behaviour in
release builds. -/
def at_ (v : List α) (i : Nat) : Outcome α :=
  match v[i]? with
  | some y => .ok y
  | none => .ub "cell_num >= cells_size"

/-- `std::unique` after the first kept element `last` (`loaders/loader_utils.hpp:158`). -/
def uniqueFrom [DecidableEq α] (last : α) : List α → List α
  | [] => []
  | y :: ys => if last = y then uniqueFrom last ys else y :: uniqueFrom y ys

/-- `std::unique` followed by `erase`, `loaders/loader_utils.hpp:158-159`. -/
def unique [DecidableEq α] : List α → List α
  | [] => []
  | x :: xs => x :: uniqueFrom x xs

/-- `sort_uniq`, `loaders/loader_utils.hpp:153-160`. `std::sort` is modelled by a merge sort with
the same comparison (`¬ b < a`); `Props/Lookup.lean` shows that any sorted permutation gives the
same final result. -/
def sortUniq [DecidableEq α] (v : List α) : List α :=
  unique (v.mergeSort (fun a b => decide (¬ (b < a))))

end Verif.Lookup
