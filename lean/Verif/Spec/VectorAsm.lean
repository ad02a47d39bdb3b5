import Mathlib.Data.Nat.Count
import Mathlib.Algebra.BigOperators.Group.Finset.Basic
import Mathlib.Algebra.Ring.Defs
/-!
Spec of assembly with conditions on single components: which unknowns are prescribed, the numbering of the others, and
the residual before elimination. Faces are given by their number of unknowns and the predicate "prescribed".
-/
namespace Verif.Spec
open Finset

/-- Component `c` is prescribed by the Dirichlet type with this code: 0 all, 1 all (to zero), 2 x, 3 y, 4 z, 5 x and y,
6 x and z, 7 y and z. -/
def fixedComp (t c : Nat) : Bool :=
  match t with
  | 0 => true
  | 1 => true
  | 2 => c == 0
  | 3 => c == 1
  | 4 => c == 2
  | 5 => c == 0 || c == 1
  | 6 => c == 0 || c == 2
  | 7 => c == 1 || c == 2
  | _ => false

/-- The unknowns of the faces: number of coefficients, and which are prescribed. -/
abbrev DofTable := List (Nat × (Nat → Bool))

/-- Number of free coefficients before coefficient `i` of a face. -/
def freeBefore (d : Nat × (Nat → Bool)) (i : Nat) : Nat := Nat.count (fun j => d.2 j = false) i

/-- Number of free coefficients. -/
def numFree : DofTable → Nat
  | [] => 0
  | d :: ds => freeBefore d d.1 + numFree ds

/-- Coefficient `i` of face `f` exists and is free. -/
def IsFreeDof (ds : DofTable) (f i : Nat) : Prop := ∃ d, ds[f]? = some d ∧ i < d.1 ∧ d.2 i = false

/-- Number of the free coefficients before coefficient `i` of face `f`, in the order of the faces. -/
def dofNumber : DofTable → Nat → Nat → Nat
  | [], _, _ => 0
  | d :: _, 0, i => freeBefore d i
  | d :: ds, f + 1, i => freeBefore d d.1 + dofNumber ds f i

/-- Coefficients of a list of faces, in order. -/
def dofsOf (ds : DofTable) (fcs : List Nat) : List (Nat × Nat) :=
  fcs.flatMap fun f => (List.range ((ds[f]?).elim 0 (·.1))).map fun i => (f, i)

/-- Value of a coefficient: prescribed, or the unknown with its number. -/
def dofValue {K : Type} (ds : DofTable) (val : Nat → Nat → K) (u : Nat → K) (x : Nat × Nat) : K :=
  if (ds[x.1]?).elim false (fun d => d.2 x.2) then val x.1 x.2 else u (dofNumber ds x.1 x.2)

/-- Residual of a cell with the coefficients `l` at the rows of the coefficient `x`. -/
def dofResidual {K : Type} [Ring K] (l : List (Nat × Nat)) (lhs : Nat → Nat → K) (rhs : Nat → K) (w : Nat × Nat → K)
    (x : Nat × Nat) : K :=
  ∑ p ∈ range l.length,
    if l[p]? = some x then (∑ q ∈ range l.length, lhs p q * (l[q]?).elim 0 w) - rhs p else 0

/-- Load on a coefficient: `g` on the loaded faces of the list. -/
def faceLoad {K : Type} [Zero K] (loaded : Nat → Bool) (g : Nat → Nat → K) (bs : List Nat) (x : Nat × Nat) : K :=
  if x.1 ∈ bs ∧ loaded x.1 = true then g x.1 x.2 else 0

end Verif.Spec
