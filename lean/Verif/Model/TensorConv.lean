import Verif.Model.Tensor
import Mathlib.Analysis.Real.Sqrt
/-!
Conversions of matrices and fourth-order tensors: `mechanics/behaviors/tensor_conversion.hpp`.

Scalars are the reals, so `sqrt(2.)` is exact. A vector is its size and its entries; all reads below are at constant
positions smaller than the size that selects the case.
-/
namespace Verif.TensorConv
open Verif.Tensor Finset

/-- A `std::vector<T>`. -/
structure Vec where
  size : Nat
  at' : Nat → ℝ

/-- The factors `1`, `sqrt(2)` and `2`. -/
inductive Fac
  | one
  | sqrt2
  | two
deriving DecidableEq

noncomputable def Fac.val : Fac → ℝ
  | one => 1
  | sqrt2 => Real.sqrt 2
  | two => 2

/-- `convertMatrix3D` of a 2x2 matrix, `tensor_conversion.hpp:47-55`. -/
def matrix3D (M : Mat ℝ 2) : Mat ℝ 3 := fun i j =>
  if h : i.val < 2 ∧ j.val < 2 then M ⟨i, h.1⟩ ⟨j, h.2⟩ else 0

/-- `convertMatrix3DwithOne` of a 2x2 matrix, `tensor_conversion.hpp:64-72`. -/
def matrix3DOne (M : Mat ℝ 2) : Mat ℝ 3 := fun i j =>
  if h : i.val < 2 ∧ j.val < 2 then M ⟨i, h.1⟩ ⟨j, h.2⟩ else if i = j then 1 else 0

/-- `convertMatrix<T, 2>`, `tensor_conversion.hpp:74-81`. -/
def matrix2 (M : Mat ℝ 3) : Mat ℝ 2 := fun i j => M ⟨i, by omega⟩ ⟨j, by omega⟩

/-- Copies the 2x2 block at `(r1, c1)` of `B` to `(r0, c0)` of `A` (9x9 matrices). -/
def copyBlock (A B : Mat ℝ 9) (r0 c0 r1 c1 : Nat) : Mat ℝ 9 := fun r c =>
  if h : (r0 ≤ r.val ∧ r.val < r0 + 2 ∧ c0 ≤ c.val ∧ c.val < c0 + 2) ∧ r1 + 2 ≤ 9 ∧ c1 + 2 ≤ 9 then
    B ⟨r.val - r0 + r1, by omega⟩ ⟨c.val - c0 + c1, by omega⟩
  else A r c

/-- `convertTensor<T, 2>`, `tensor_conversion.hpp:83-103`. -/
def tensor2 (A : Tens ℝ 3) : Tens ℝ 2 :=
  let R0 : Mat ℝ 9 := fun _ _ => 0
  let R1 := copyBlock R0 A 0 0 0 0
  let R2 := copyBlock R1 A 0 2 0 3
  let R3 := copyBlock R2 A 2 0 3 0
  let R4 := copyBlock R3 A 2 2 3 3
  fun r c => R4 ⟨r, by omega⟩ ⟨c, by omega⟩

/-- Right-hand sides of the assignments of `convertTensorFromMgis`: an entry of the vector divided by a factor, or a
coefficient already stored. -/
inductive Src
  | vec (n : Nat) (f : Fac)
  | copy (t : Idx 3)
deriving DecidableEq

/-- The assignments of `case 16`, `tensor_conversion.hpp:320-351`. -/
def writes16 : List (Idx 3 × Src) := [
  (⟨0, 0, 0, 0⟩, .vec 0 .one), (⟨0, 0, 1, 1⟩, .vec 1 .one), (⟨0, 0, 2, 2⟩, .vec 2 .one),
  (⟨0, 0, 0, 1⟩, .vec 3 .sqrt2), (⟨0, 0, 1, 0⟩, .copy ⟨0, 0, 0, 1⟩), (⟨1, 1, 0, 0⟩, .vec 4 .one),
  (⟨1, 1, 1, 1⟩, .vec 5 .one), (⟨1, 1, 2, 2⟩, .vec 6 .one), (⟨1, 1, 0, 1⟩, .vec 7 .sqrt2),
  (⟨1, 1, 1, 0⟩, .copy ⟨1, 1, 0, 1⟩), (⟨2, 2, 0, 0⟩, .vec 8 .one), (⟨2, 2, 1, 1⟩, .vec 9 .one),
  (⟨2, 2, 2, 2⟩, .vec 10 .one), (⟨2, 2, 0, 1⟩, .vec 11 .sqrt2), (⟨2, 2, 1, 0⟩, .copy ⟨2, 2, 0, 1⟩),
  (⟨0, 1, 0, 0⟩, .vec 12 .sqrt2), (⟨0, 1, 1, 1⟩, .vec 13 .sqrt2), (⟨0, 1, 2, 2⟩, .vec 14 .sqrt2),
  (⟨0, 1, 0, 1⟩, .vec 15 .two), (⟨0, 1, 1, 0⟩, .copy ⟨0, 1, 0, 1⟩), (⟨1, 0, 0, 0⟩, .copy ⟨0, 1, 0, 0⟩),
  (⟨1, 0, 1, 1⟩, .copy ⟨0, 1, 1, 1⟩), (⟨1, 0, 2, 2⟩, .copy ⟨0, 1, 2, 2⟩), (⟨1, 0, 1, 0⟩, .copy ⟨0, 1, 1, 0⟩),
  (⟨1, 0, 0, 1⟩, .copy ⟨0, 1, 0, 1⟩)]

/-- The assignments of `case 25`, `tensor_conversion.hpp:355-385`. -/
def writes25 : List (Idx 3 × Src) := [
  (⟨0, 0, 0, 0⟩, .vec 0 .one), (⟨0, 0, 1, 1⟩, .vec 1 .one), (⟨0, 0, 2, 2⟩, .vec 2 .one),
  (⟨0, 0, 0, 1⟩, .vec 3 .one), (⟨0, 0, 1, 0⟩, .vec 4 .one), (⟨1, 1, 0, 0⟩, .vec 5 .one),
  (⟨1, 1, 1, 1⟩, .vec 6 .one), (⟨1, 1, 2, 2⟩, .vec 7 .one), (⟨1, 1, 0, 1⟩, .vec 8 .one),
  (⟨1, 1, 1, 0⟩, .vec 9 .one), (⟨2, 2, 0, 0⟩, .vec 10 .one), (⟨2, 2, 1, 1⟩, .vec 11 .one),
  (⟨2, 2, 2, 2⟩, .vec 12 .one), (⟨2, 2, 0, 1⟩, .vec 13 .one), (⟨2, 2, 1, 0⟩, .vec 14 .one),
  (⟨0, 1, 0, 0⟩, .vec 15 .one), (⟨0, 1, 1, 1⟩, .vec 16 .one), (⟨0, 1, 2, 2⟩, .vec 17 .one),
  (⟨0, 1, 0, 1⟩, .vec 18 .one), (⟨0, 1, 1, 0⟩, .vec 19 .one), (⟨1, 0, 0, 0⟩, .vec 20 .one),
  (⟨1, 0, 1, 1⟩, .vec 21 .one), (⟨1, 0, 2, 2⟩, .vec 22 .one), (⟨1, 0, 0, 1⟩, .vec 23 .one),
  (⟨1, 0, 1, 0⟩, .vec 24 .one)]

/-- The assignments of `case 36`, `tensor_conversion.hpp:389-480`. -/
def writes36 : List (Idx 3 × Src) := [
  (⟨0, 0, 0, 0⟩, .vec 0 .one), (⟨0, 0, 1, 1⟩, .vec 1 .one), (⟨0, 0, 2, 2⟩, .vec 2 .one),
  (⟨0, 0, 1, 2⟩, .vec 3 .sqrt2), (⟨0, 0, 2, 1⟩, .copy ⟨0, 0, 1, 2⟩), (⟨0, 0, 2, 0⟩, .vec 4 .sqrt2),
  (⟨0, 0, 0, 2⟩, .copy ⟨0, 0, 2, 0⟩), (⟨0, 0, 0, 1⟩, .vec 5 .sqrt2), (⟨0, 0, 1, 0⟩, .copy ⟨0, 0, 0, 1⟩),
  (⟨1, 1, 0, 0⟩, .vec 6 .one), (⟨1, 1, 1, 1⟩, .vec 7 .one), (⟨1, 1, 2, 2⟩, .vec 8 .one),
  (⟨1, 1, 1, 2⟩, .vec 9 .sqrt2), (⟨1, 1, 2, 1⟩, .copy ⟨1, 1, 1, 2⟩), (⟨1, 1, 2, 0⟩, .vec 10 .sqrt2),
  (⟨1, 1, 0, 2⟩, .copy ⟨1, 1, 2, 0⟩), (⟨1, 1, 0, 1⟩, .vec 11 .sqrt2), (⟨1, 1, 1, 0⟩, .copy ⟨1, 1, 0, 1⟩),
  (⟨2, 2, 0, 0⟩, .vec 12 .one), (⟨2, 2, 1, 1⟩, .vec 13 .one), (⟨2, 2, 2, 2⟩, .vec 14 .one),
  (⟨2, 2, 1, 2⟩, .vec 15 .sqrt2), (⟨2, 2, 2, 1⟩, .copy ⟨2, 2, 1, 2⟩), (⟨2, 2, 2, 0⟩, .vec 16 .sqrt2),
  (⟨2, 2, 0, 2⟩, .copy ⟨2, 2, 2, 0⟩), (⟨2, 2, 0, 1⟩, .vec 17 .sqrt2), (⟨2, 2, 1, 0⟩, .copy ⟨2, 2, 0, 1⟩),
  (⟨1, 2, 0, 0⟩, .vec 18 .sqrt2), (⟨1, 2, 1, 1⟩, .vec 19 .sqrt2), (⟨1, 2, 2, 2⟩, .vec 20 .sqrt2),
  (⟨1, 2, 1, 2⟩, .vec 21 .two), (⟨1, 2, 2, 1⟩, .copy ⟨1, 2, 1, 2⟩), (⟨1, 2, 2, 0⟩, .vec 22 .two),
  (⟨1, 2, 0, 2⟩, .copy ⟨1, 2, 2, 0⟩), (⟨1, 2, 0, 1⟩, .vec 23 .two), (⟨1, 2, 1, 0⟩, .copy ⟨1, 2, 0, 1⟩),
  (⟨2, 0, 0, 0⟩, .vec 24 .sqrt2), (⟨2, 0, 1, 1⟩, .vec 25 .sqrt2), (⟨2, 0, 2, 2⟩, .vec 26 .sqrt2),
  (⟨2, 0, 1, 2⟩, .vec 27 .two), (⟨2, 0, 2, 1⟩, .copy ⟨2, 0, 1, 2⟩), (⟨2, 0, 2, 0⟩, .vec 28 .two),
  (⟨2, 0, 0, 2⟩, .copy ⟨2, 0, 2, 0⟩), (⟨2, 0, 0, 1⟩, .vec 29 .two), (⟨2, 0, 1, 0⟩, .copy ⟨2, 0, 0, 1⟩),
  (⟨0, 1, 0, 0⟩, .vec 30 .sqrt2), (⟨0, 1, 1, 1⟩, .vec 31 .sqrt2), (⟨0, 1, 2, 2⟩, .vec 32 .two),
  (⟨0, 1, 1, 2⟩, .vec 33 .two), (⟨0, 1, 2, 1⟩, .copy ⟨0, 1, 1, 2⟩), (⟨0, 1, 2, 0⟩, .vec 34 .sqrt2),
  (⟨0, 1, 0, 2⟩, .copy ⟨0, 1, 2, 0⟩), (⟨0, 1, 0, 1⟩, .vec 35 .two), (⟨0, 1, 1, 0⟩, .copy ⟨0, 1, 0, 1⟩),
  (⟨2, 1, 0, 0⟩, .copy ⟨1, 2, 0, 0⟩), (⟨2, 1, 1, 1⟩, .copy ⟨1, 2, 1, 1⟩), (⟨2, 1, 2, 2⟩, .copy ⟨1, 2, 2, 2⟩),
  (⟨2, 1, 1, 2⟩, .copy ⟨1, 2, 1, 2⟩), (⟨2, 1, 2, 1⟩, .copy ⟨1, 2, 2, 1⟩), (⟨2, 1, 2, 0⟩, .copy ⟨1, 2, 2, 0⟩),
  (⟨2, 1, 0, 2⟩, .copy ⟨1, 2, 0, 2⟩), (⟨2, 1, 0, 1⟩, .copy ⟨1, 2, 0, 1⟩), (⟨2, 1, 1, 0⟩, .copy ⟨1, 2, 1, 0⟩),
  (⟨0, 2, 0, 0⟩, .copy ⟨2, 0, 0, 0⟩), (⟨0, 2, 1, 1⟩, .copy ⟨2, 0, 1, 1⟩), (⟨0, 2, 2, 2⟩, .copy ⟨2, 0, 2, 2⟩),
  (⟨0, 2, 1, 2⟩, .copy ⟨2, 0, 1, 2⟩), (⟨0, 2, 2, 1⟩, .copy ⟨2, 0, 2, 1⟩), (⟨0, 2, 2, 0⟩, .copy ⟨2, 0, 2, 0⟩),
  (⟨0, 2, 0, 2⟩, .copy ⟨2, 0, 0, 2⟩), (⟨0, 2, 0, 1⟩, .copy ⟨2, 0, 0, 1⟩), (⟨0, 2, 1, 0⟩, .copy ⟨2, 0, 1, 0⟩),
  (⟨1, 0, 0, 0⟩, .copy ⟨0, 1, 0, 0⟩), (⟨1, 0, 1, 1⟩, .copy ⟨0, 1, 1, 1⟩), (⟨1, 0, 2, 2⟩, .copy ⟨0, 1, 2, 2⟩),
  (⟨1, 0, 1, 2⟩, .copy ⟨0, 1, 1, 2⟩), (⟨1, 0, 2, 1⟩, .copy ⟨0, 1, 2, 1⟩), (⟨1, 0, 2, 0⟩, .copy ⟨0, 1, 2, 0⟩),
  (⟨1, 0, 0, 2⟩, .copy ⟨0, 1, 0, 2⟩), (⟨1, 0, 0, 1⟩, .copy ⟨0, 1, 0, 1⟩), (⟨1, 0, 1, 0⟩, .copy ⟨0, 1, 1, 0⟩)]

/-- The assignments of `case 81`, `tensor_conversion.hpp:484-574`. -/
def writes81 : List (Idx 3 × Src) := [
  (⟨0, 0, 0, 0⟩, .vec 0 .one), (⟨0, 0, 1, 1⟩, .vec 1 .one), (⟨0, 0, 2, 2⟩, .vec 2 .one),
  (⟨0, 0, 0, 1⟩, .vec 3 .one), (⟨0, 0, 1, 0⟩, .vec 4 .one), (⟨0, 0, 0, 2⟩, .vec 5 .one),
  (⟨0, 0, 2, 0⟩, .vec 6 .one), (⟨0, 0, 1, 2⟩, .vec 7 .one), (⟨0, 0, 2, 1⟩, .vec 8 .one),
  (⟨1, 1, 0, 0⟩, .vec 9 .one), (⟨1, 1, 1, 1⟩, .vec 10 .one), (⟨1, 1, 2, 2⟩, .vec 11 .one),
  (⟨1, 1, 0, 1⟩, .vec 12 .one), (⟨1, 1, 1, 0⟩, .vec 13 .one), (⟨1, 1, 0, 2⟩, .vec 14 .one),
  (⟨1, 1, 2, 0⟩, .vec 15 .one), (⟨1, 1, 1, 2⟩, .vec 16 .one), (⟨1, 1, 2, 1⟩, .vec 17 .one),
  (⟨2, 2, 0, 0⟩, .vec 18 .one), (⟨2, 2, 1, 1⟩, .vec 19 .one), (⟨2, 2, 2, 2⟩, .vec 20 .one),
  (⟨2, 2, 0, 1⟩, .vec 21 .one), (⟨2, 2, 1, 0⟩, .vec 22 .one), (⟨2, 2, 0, 2⟩, .vec 23 .one),
  (⟨2, 2, 2, 0⟩, .vec 24 .one), (⟨2, 2, 1, 2⟩, .vec 25 .one), (⟨2, 2, 2, 1⟩, .vec 26 .one),
  (⟨0, 1, 0, 0⟩, .vec 27 .one), (⟨0, 1, 1, 1⟩, .vec 28 .one), (⟨0, 1, 2, 2⟩, .vec 29 .one),
  (⟨0, 1, 0, 1⟩, .vec 30 .one), (⟨0, 1, 1, 0⟩, .vec 31 .one), (⟨0, 1, 0, 2⟩, .vec 32 .one),
  (⟨0, 1, 2, 0⟩, .vec 33 .one), (⟨0, 1, 1, 2⟩, .vec 34 .one), (⟨0, 1, 2, 1⟩, .vec 35 .one),
  (⟨1, 0, 0, 0⟩, .vec 36 .one), (⟨1, 0, 1, 1⟩, .vec 37 .one), (⟨1, 0, 2, 2⟩, .vec 38 .one),
  (⟨1, 0, 0, 1⟩, .vec 39 .one), (⟨1, 0, 1, 0⟩, .vec 40 .one), (⟨1, 0, 0, 2⟩, .vec 41 .one),
  (⟨1, 0, 2, 0⟩, .vec 42 .one), (⟨1, 0, 1, 2⟩, .vec 43 .one), (⟨1, 0, 2, 1⟩, .vec 44 .one),
  (⟨0, 2, 0, 0⟩, .vec 45 .one), (⟨0, 2, 1, 1⟩, .vec 46 .one), (⟨0, 2, 2, 2⟩, .vec 47 .one),
  (⟨0, 2, 0, 1⟩, .vec 48 .one), (⟨0, 2, 1, 0⟩, .vec 49 .one), (⟨0, 2, 0, 2⟩, .vec 50 .one),
  (⟨0, 2, 2, 0⟩, .vec 51 .one), (⟨0, 2, 1, 2⟩, .vec 52 .one), (⟨0, 2, 2, 1⟩, .vec 53 .one),
  (⟨2, 0, 0, 0⟩, .vec 54 .one), (⟨2, 0, 1, 1⟩, .vec 55 .one), (⟨2, 0, 2, 2⟩, .vec 56 .one),
  (⟨2, 0, 0, 1⟩, .vec 57 .one), (⟨2, 0, 1, 0⟩, .vec 58 .one), (⟨2, 0, 0, 2⟩, .vec 59 .one),
  (⟨2, 0, 2, 0⟩, .vec 60 .one), (⟨2, 0, 1, 2⟩, .vec 61 .one), (⟨2, 0, 2, 1⟩, .vec 62 .one),
  (⟨1, 2, 0, 0⟩, .vec 63 .one), (⟨1, 2, 1, 1⟩, .vec 64 .one), (⟨1, 2, 2, 2⟩, .vec 65 .one),
  (⟨1, 2, 0, 1⟩, .vec 66 .one), (⟨1, 2, 1, 0⟩, .vec 67 .one), (⟨1, 2, 0, 2⟩, .vec 68 .one),
  (⟨1, 2, 2, 0⟩, .vec 69 .one), (⟨1, 2, 1, 2⟩, .vec 70 .one), (⟨1, 2, 2, 1⟩, .vec 71 .one),
  (⟨2, 1, 0, 0⟩, .vec 72 .one), (⟨2, 1, 1, 1⟩, .vec 73 .one), (⟨2, 1, 2, 2⟩, .vec 74 .one),
  (⟨2, 1, 0, 1⟩, .vec 75 .one), (⟨2, 1, 1, 0⟩, .vec 76 .one), (⟨2, 1, 0, 2⟩, .vec 77 .one),
  (⟨2, 1, 2, 0⟩, .vec 78 .one), (⟨2, 1, 1, 2⟩, .vec 79 .one), (⟨2, 1, 2, 1⟩, .vec 80 .one)]

/-- `convertTensorNotationMangel`: the assignments made in both dimensions, `tensor_conversion.hpp:112-121`. -/
def mandel2 : List (Fin 6 × Fin 6 × Idx 3 × Fac) := [
  (0, 0, ⟨0, 0, 0, 0⟩, .one), (0, 1, ⟨0, 0, 1, 1⟩, .one), (1, 0, ⟨1, 1, 0, 0⟩, .one),
  (1, 1, ⟨1, 1, 1, 1⟩, .one), (0, 3, ⟨0, 0, 0, 1⟩, .sqrt2), (1, 3, ⟨1, 1, 0, 1⟩, .sqrt2),
  (3, 0, ⟨0, 1, 0, 0⟩, .sqrt2), (3, 1, ⟨0, 1, 1, 1⟩, .sqrt2), (3, 3, ⟨0, 1, 0, 1⟩, .two)]

/-- `convertTensorNotationMangel`: the assignments made for `DIM == 3` only, `tensor_conversion.hpp:125-155`. -/
def mandel3 : List (Fin 6 × Fin 6 × Idx 3 × Fac) := [
  (0, 2, ⟨0, 0, 2, 2⟩, .one), (1, 2, ⟨1, 1, 2, 2⟩, .one), (2, 2, ⟨2, 2, 2, 2⟩, .one),
  (2, 0, ⟨2, 2, 0, 0⟩, .one), (2, 1, ⟨2, 2, 1, 1⟩, .one), (2, 3, ⟨2, 2, 0, 1⟩, .sqrt2),
  (3, 2, ⟨0, 1, 2, 2⟩, .sqrt2), (0, 5, ⟨0, 0, 1, 2⟩, .sqrt2), (0, 4, ⟨0, 0, 0, 2⟩, .sqrt2),
  (1, 5, ⟨1, 1, 1, 2⟩, .sqrt2), (1, 4, ⟨1, 1, 0, 2⟩, .sqrt2), (2, 5, ⟨2, 2, 1, 2⟩, .sqrt2),
  (2, 4, ⟨2, 2, 0, 2⟩, .sqrt2), (4, 0, ⟨0, 2, 0, 0⟩, .sqrt2), (4, 1, ⟨0, 2, 1, 1⟩, .sqrt2),
  (4, 2, ⟨0, 2, 2, 2⟩, .sqrt2), (5, 0, ⟨1, 2, 0, 0⟩, .sqrt2), (5, 1, ⟨1, 2, 1, 1⟩, .sqrt2),
  (5, 2, ⟨1, 2, 2, 2⟩, .sqrt2), (3, 5, ⟨0, 1, 1, 2⟩, .two), (3, 4, ⟨0, 1, 0, 2⟩, .two),
  (4, 3, ⟨0, 2, 0, 1⟩, .two), (4, 5, ⟨0, 2, 1, 2⟩, .two), (4, 4, ⟨0, 2, 0, 2⟩, .two),
  (5, 3, ⟨1, 2, 0, 1⟩, .two), (5, 5, ⟨1, 2, 1, 2⟩, .two), (5, 4, ⟨1, 2, 0, 2⟩, .two)]

/-- `convertTensorNotationMangel` in 3D: the assignments to a zero matrix. -/
noncomputable def mandel (A : Tens ℝ 3) : Mat ℝ 6 :=
  (mandel2 ++ mandel3).foldl (fun R e => setM R e.1 e.2.1 (get A e.2.2.1 * e.2.2.2.val)) (fun _ _ => 0)

/-- The value of a right-hand side. -/
noncomputable def Src.val (v : Vec) (A : Tens ℝ 3) : Src → ℝ
  | vec n f => v.at' n / f.val
  | copy t => get A t

/-- A sequence of assignments to a zero tensor. -/
noncomputable def exec (w : List (Idx 3 × Src)) (v : Vec) : Tens ℝ 3 :=
  w.foldl (fun A e => set A e.1 (e.2.val v A)) zero

/-- `convertTensorFromMgis`, `tensor_conversion.hpp:310-580`. -/
noncomputable def tensorFromMgis (v : Vec) : Outcome (Tens ℝ 3) :=
  match v.size with
  | 16 => .ok (exec writes16 v)
  | 25 => .ok (exec writes25 v)
  | 36 => .ok (exec writes36 v)
  | 81 => .ok (exec writes81 v)
  | _ => .throws "wrong size"

/-- `convertMatrixToMgis`, `tensor_conversion.hpp:201-251`, for a vector of the given size: its new entries. -/
noncomputable def matrixToMgis (M : Mat ℝ 3) (size : Nat) : Outcome (List ℝ) :=
  match size with
  | 4 => .ok [M 0 0, M 1 1, M 2 2, Real.sqrt 2 * M 0 1]
  | 5 => .ok [M 0 0, M 1 1, M 2 2, M 0 1, M 1 0]
  | 6 => .ok [M 0 0, M 1 1, M 2 2, Real.sqrt 2 * M 0 1, Real.sqrt 2 * M 0 2, Real.sqrt 2 * M 1 2]
  | 9 => .ok [M 0 0, M 1 1, M 2 2, M 0 1, M 1 0, M 0 2, M 2 0, M 1 2, M 2 1]
  | _ => .throws "wrong size"

/-- An assignment of `convertMatrixFromMgis`: from the vector, divided by a factor, or from a stored entry. -/
inductive MSrc
  | vec (n : Nat) (f : Fac)
  | copy (r c : Fin 3)

/-- The assignments of `convertMatrixFromMgis`, `tensor_conversion.hpp:257-306`. -/
def matrixWrites : Nat → Option (List (Fin 3 × Fin 3 × MSrc))
  | 4 => some [(0, 0, .vec 0 .one), (1, 1, .vec 1 .one), (2, 2, .vec 2 .one), (0, 1, .vec 3 .sqrt2), (1, 0, .copy 0 1)]
  | 5 => some [(0, 0, .vec 0 .one), (1, 1, .vec 1 .one), (2, 2, .vec 2 .one), (0, 1, .vec 3 .one), (1, 0, .vec 4 .one)]
  | 6 => some [(0, 0, .vec 0 .one), (1, 1, .vec 1 .one), (2, 2, .vec 2 .one), (0, 1, .vec 3 .sqrt2), (1, 0, .copy 0 1),
      (0, 2, .vec 4 .sqrt2), (2, 0, .copy 0 2), (0, 1, .vec 5 .sqrt2), (2, 1, .copy 1 2)]
  | 9 => some [(0, 0, .vec 0 .one), (1, 1, .vec 1 .one), (2, 2, .vec 2 .one), (0, 1, .vec 3 .one), (1, 0, .vec 4 .one),
      (0, 2, .vec 5 .one), (2, 0, .vec 6 .one), (1, 2, .vec 7 .one), (2, 1, .vec 8 .one)]
  | _ => none

/-- `convertMatrixFromMgis`, `tensor_conversion.hpp:253-308`. -/
noncomputable def matrixFromMgis (v : List ℝ) : Outcome (Mat ℝ 3) :=
  match matrixWrites v.length with
  | none => .throws "wrong size"
  | some w => .ok (w.foldl (fun M e => setM M e.1 e.2.1 (match e.2.2 with
      | .vec n f => v.getD n 0 / f.val
      | .copy r c => M r c)) (fun _ _ => 0))

/-- The value `sum` of `convertCtoA` for `i`, `J`, `k`, `L`. -/
noncomputable def ctoaTerm (C : Tens ℝ 3) (S F : Mat ℝ 3) (t : Idx 3) : ℝ :=
  (∑ M, (∑ N, get C ⟨M, t.j, N, t.l⟩ * F t.k N) * F t.i M) + if t.i = t.k then S t.j t.l else 0

/-- `convertCtoA`, `tensor_conversion.hpp:162-199`: every step of the loop writes two coefficients. -/
noncomputable def ctoa (C : Tens ℝ 3) (S F : Mat ℝ 3) : Tens ℝ 3 :=
  (quads 3).foldl (fun A t => set (set A t (ctoaTerm C S F t)) ⟨t.k, t.l, t.i, t.j⟩ (ctoaTerm C S F t)) zero

end Verif.TensorConv
