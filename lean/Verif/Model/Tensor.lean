import Verif.Model.Outcome
import Mathlib.Algebra.BigOperators.Fin
import Mathlib.Algebra.Field.Basic
import Mathlib.Data.List.FinRange
/-!
Fourth-order tensors stored as square matrices: `mechanics/behaviors/maths_tensor.hpp`.

Scalars are an arbitrary field, so rounding is not modelled. `static_matrix<T, D, D>` is a function of two indices below
`D`, `static_tensor<T, D>` a function of two indices below `D * D`. Sums of products (`cwiseProduct(..).sum()`) are
finite sums. Loops that write are folds over the index tuples in the order of the loops.
-/
namespace Verif.Tensor
open Finset
variable {K : Type} [Field K] {D : Nat}

abbrev Mat (K : Type) (n : Nat) := Fin n → Fin n → K

/-- `static_tensor<T, D>`. -/
abbrev Tens (K : Type) (D : Nat) := Mat K (D * D)

/-- Four indices. -/
structure Idx (D : Nat) where
  i : Fin D
  j : Fin D
  k : Fin D
  l : Fin D
deriving DecidableEq

/-- The position `i * DIM + k`. -/
def pos (i k : Fin D) : Fin (D * D) :=
  ⟨i * D + k, calc
    i * D + k < i * D + D := Nat.add_lt_add_left k.isLt _
    _ = (i + 1) * D := (Nat.succ_mul _ _).symm
    _ ≤ D * D := Nat.mul_le_mul_right D i.isLt⟩

/-- `A(i * DIM + k, j * DIM + l)`. -/
def get (A : Tens K D) (t : Idx D) : K := A (pos t.i t.k) (pos t.j t.l)

/-- `M(r, c) = v`. -/
def setM {n : Nat} (M : Mat K n) (r c : Fin n) (v : K) : Mat K n :=
  fun r' c' => if r' = r ∧ c' = c then v else M r' c'

/-- `A(i * DIM + k, j * DIM + l) = v`. -/
def set (A : Tens K D) (t : Idx D) (v : K) : Tens K D := setM A (pos t.i t.k) (pos t.j t.l) v

/-- The index check of `coeff`: integers in `[0, DIM)`. -/
def index (D : Nat) (i : Int) : Option (Fin D) :=
  if h : 0 ≤ i ∧ i < D then some ⟨i.toNat, by omega⟩ else none

/-- The four checks. -/
def indices (D : Nat) (i j k l : Int) : Outcome (Idx D) :=
  match index D i, index D j, index D k, index D l with
  | some i, some j, some k, some l => .ok ⟨i, j, k, l⟩
  | _, _, _, _ => .throws "Invalid coefficient"

/-- `coeff` reading, `maths_tensor.hpp:43-51`. -/
def coeff (A : Tens K D) (i j k l : Int) : Outcome K := (indices D i j k l).bind fun t => .ok (get A t)

/-- `coeff` writing, `maths_tensor.hpp:53-61`. -/
def setCoeff (A : Tens K D) (i j k l : Int) (v : K) : Outcome (Tens K D) :=
  (indices D i j k l).bind fun t => .ok (set A t v)

/-- `Zero()`. -/
def zero : Tens K D := fun _ _ => 0

/-- The quadruple loop over `i`, `j`, `k`, `l`. -/
def quads (D : Nat) : List (Idx D) :=
  (List.finRange D).flatMap fun i => (List.finRange D).flatMap fun j => (List.finRange D).flatMap fun k =>
    (List.finRange D).map fun l => ⟨i, j, k, l⟩

/-- `tm_prod(tens, mat)`, `maths_tensor.hpp:65-80`: the sum of the block at `(i * DIM, j * DIM)` times the matrix. -/
def tmProd (A : Tens K D) (M : Mat K D) : Mat K D := fun i j => ∑ k, ∑ l, A (pos i k) (pos j l) * M k l

/-- `tm_prod(mat, tens)`, `maths_tensor.hpp:82-104`. -/
def mtProd (M : Mat K D) (A : Tens K D) : Mat K D := fun i j => ∑ k, ∑ l, M k l * get A ⟨k, l, i, j⟩

/-- `tm_prod(tens, mat, row, col)`, `maths_tensor.hpp:106-123`, for valid `row` and `col`. -/
def tmProdAt (A : Tens K D) (M : Mat K D) (row col : Fin D) : Mat K D :=
  fun i j => M row col * get A ⟨i, j, row, col⟩

/-- `Kronecker` of matrices, `maths_tensor.hpp:136-150`: the block at `(i * DIM, j * DIM)` is `A(i,j) * B`. Row `r` is in
the block row `r / DIM`. -/
def kronecker (A B : Mat K D) : Tens K D := fun r c =>
  A ⟨r / D, Nat.div_lt_of_lt_mul r.isLt⟩ ⟨c / D, Nat.div_lt_of_lt_mul c.isLt⟩ *
    B ⟨r % D, Nat.mod_lt _ (Nat.pos_of_mul_pos_left (Nat.lt_of_le_of_lt (Nat.zero_le _) r.isLt))⟩
      ⟨c % D, Nat.mod_lt _ (Nat.pos_of_mul_pos_left (Nat.lt_of_le_of_lt (Nat.zero_le _) c.isLt))⟩

/-- `InnerProduct` of matrices, `maths_tensor.hpp:167-172`. -/
def inner (A B : Mat K D) : K := ∑ i, ∑ j, A i j * B i j

/-- `ContractedProduct` of tensors, `maths_tensor.hpp:188-218`: the six loops, accumulating into a zero tensor. -/
def contracted (A B : Tens K D) : Tens K D :=
  (quads D).foldl (fun R t => (List.finRange D).foldl (fun R p => (List.finRange D).foldl (fun R q =>
    set R t (get R t + get A ⟨t.i, t.j, p, q⟩ * get B ⟨p, q, t.k, t.l⟩)) R) R) zero

/-- `ProductSup`, `maths_tensor.hpp:222-244`. -/
def productSup (A B : Mat K D) : Tens K D :=
  (quads D).foldl (fun R t => set R t (A t.i t.k * B t.j t.l)) zero

/-- `ProductInf`, `maths_tensor.hpp:248-266`. -/
def productInf (A B : Mat K D) : Tens K D :=
  (quads D).foldl (fun R t => set R t (A t.i t.l * B t.j t.k)) zero

/-- `Odot`, `maths_tensor.hpp:376-398`. -/
def odot (A B : Mat K D) : Tens K D :=
  (quads D).foldl (fun R t => set R t ((A t.i t.k * B t.j t.l + A t.i t.l * B t.j t.k) / 2)) zero

/-- `transpose`, `maths_tensor.hpp:352-374`; the result starts uninitialised: `junk`. -/
def transpose (junk A : Tens K D) : Tens K D :=
  (quads D).foldl (fun R t => set R t (get A ⟨t.k, t.l, t.i, t.j⟩)) junk

/-- The constants `one` and `half = one / T{2}`. -/
inductive Const
  | one
  | half
deriving DecidableEq

def Const.val (K : Type) [Field K] : Const → K
  | one => 1
  | half => 1 / 2

/-- A list of assignments `ret(r, c) = v` to a zero tensor. -/
def assign (w : List (Nat × Nat × Const)) : Tens K D :=
  w.foldl (fun A e r c => if r.val = e.1 ∧ c.val = e.2.1 then e.2.2.val K else A r c) zero

open Const in
/-- The assignments of `IdentityTensor4`, `maths_tensor.hpp:268-300`; other dimensions do not compile. -/
def identityWrites : Nat → List (Nat × Nat × Const)
  | 1 => [(0, 0, one)]
  | 2 => [(0, 0, one), (0, 3, one), (3, 0, one), (3, 3, one)]
  | 3 => [(0, 0, one), (0, 4, one), (0, 8, one), (4, 0, one), (4, 4, one), (4, 8, one), (8, 0, one), (8, 4, one),
      (8, 8, one)]
  | _ => []

/-- `IdentityTensor4`. -/
def identity (K : Type) [Field K] (D : Nat) : Tens K D := assign (identityWrites D)

open Const in
/-- The assignments of `IdentitySymTensor4`, `maths_tensor.hpp:302-343`. -/
def identitySymWrites : Nat → List (Nat × Nat × Const)
  | 1 => [(0, 0, one)]
  | 2 => [(0, 0, one), (0, 3, half), (1, 2, half), (2, 1, half), (3, 0, half), (3, 3, one)]
  | 3 => [(0, 0, one), (0, 4, half), (0, 8, half), (1, 3, half), (2, 6, half), (3, 1, half), (4, 0, half), (4, 4, one),
      (4, 8, half), (5, 7, half), (6, 2, half), (8, 0, half), (7, 5, half), (8, 4, half), (8, 8, one)]
  | _ => []

/-- `IdentitySymTensor4`. -/
def identitySym (K : Type) [Field K] (D : Nat) : Tens K D := assign (identitySymWrites D)

/-- `IxI`, `maths_tensor.hpp:345-350`. -/
def ixi (K : Type) [Field K] (D : Nat) : Tens K D := fun r c => if r = c then 1 else 0

end Verif.Tensor
