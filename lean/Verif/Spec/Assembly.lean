import Mathlib.Algebra.BigOperators.Group.Finset.Basic
import Mathlib.Algebra.Ring.Defs
/-!
Spec of assembly: numbering of unknown faces and the un-eliminated residual, stated on flags and local
matrices only.
-/
namespace Verif.Spec

/-- The unknown (non-Dirichlet) faces in increasing order. -/
def unknownFaces (dir : List Bool) : List Nat :=
  (List.range dir.length).filter (fun i => dir[i]? = some false)

/-- Position of a face among the unknown ones: the number of unknown faces before it. -/
def unknownPos (dir : List Bool) (f : Nat) : Nat := (dir.take f).count false

/-- Value of coefficient `l` on face `f` of the global function: prescribed on Dirichlet faces, taken
from the candidate solution `u` on the others. -/
def faceValue {R : Type} (dir : List Bool) (b : Nat) (proj : Nat → Nat → R) (u : Nat → R) (f l : Nat) : R :=
  if dir[f]? = some true then proj f l else u (unknownPos dir f * b + l)

/-- Local residual of a cell (faces `fcs`) at coefficient `k` of its `p`-th face. -/
def localResidual {R : Type} [Ring R] (b : Nat) (fcs : List Nat) (lhs : Nat → Nat → R) (rhs : List R)
    (w : Nat → Nat → R) (p k : Nat) : R :=
  (∑ q ∈ Finset.range fcs.length, ∑ l ∈ Finset.range b, lhs (p * b + k) (q * b + l) * w (fcs.getD q 0) l) -
    rhs.getD (p * b + k) 0

/-- Contribution of a cell to the global residual at coefficient `k` of the face `f`: the sum over the
occurrences of `f` in the cell. -/
def cellResidual {R : Type} [Ring R] (b : Nat) (fcs : List Nat) (lhs : Nat → Nat → R) (rhs : List R)
    (w : Nat → Nat → R) (f k : Nat) : R :=
  ∑ p ∈ Finset.range fcs.length, if fcs.getD p 0 = f then localResidual b fcs lhs rhs w p k else 0

/-- Entry `(i, j)` of the global matrix that has the `c × c` block `A` at block row `a` and block column `b`
and zeros elsewhere. -/
def blockEntry {R : Type} [Zero R] (c a b : Nat) (A : Nat → Nat → R) (i j : Nat) : R :=
  if i / c = a ∧ j / c = b then A (i % c) (j % c) else 0

/-- Entry `i` of the global vector that has the block `r` at block `a` and zeros elsewhere. -/
def blockVec {R : Type} [Zero R] (c a : Nat) (r : Nat → R) (i : Nat) : R :=
  if i / c = a then r (i % c) else 0

end Verif.Spec
