import Mathlib.LinearAlgebra.Matrix.NonsingularInverse
import Verif.Model.Outcome
/-!
Static condensation and decondensation:
`methods/implementation_hho/scalar_hho_condensation.hpp:44-190`, `methods/hho_assemblers.hpp:215-275`
(`schur`, `deschur`) and `methods/implementation_vem/methods_vem_2d.hpp:185-245` (`vem::schur`,
`vem::deschur`). The vector versions (`vector_hho_condensation.hpp`) call the same `priv` functions.

Scalars are exact elements of a real-like field (self-adjoint = symmetric; complex scalars are not
modelled). The matrix is a square array of the size the asserts demand. Eigen's `LDLT` is an assumption
(`LDLT` below): it reads only the lower triangle, has a success flag, and when the flag is set and the
matrix read is invertible it solves the system.
-/
namespace Verif.Condensation
open Matrix

/-- The symmetric matrix Eigen's `ldlt()` factorises: the lower triangle, mirrored. -/
def symL {K : Type} {n : Nat} (A : Matrix (Fin n) (Fin n) K) : Matrix (Fin n) (Fin n) K :=
  fun i j => if j ≤ i then A i j else A j i

/-- What is assumed of Eigen's `LDLT`. -/
structure LDLT (K : Type) [CommRing K] where
  /-- `info() == Eigen::Success` -/
  success : {n : Nat} → Matrix (Fin n) (Fin n) K → Bool
  /-- `solve`, one column at a time. -/
  solve : {n : Nat} → Matrix (Fin n) (Fin n) K → (Fin n → K) → (Fin n → K)
  solves : ∀ {n : Nat} (A : Matrix (Fin n) (Fin n) K) (b : Fin n → K), success A = true →
    IsUnit (symL A).det → symL A *ᵥ solve A b = b

variable {K : Type} [CommRing K]

/-- `topLeftCorner(nc, nc)` -/
def topLeft {nc nf : Nat} (M : Matrix (Fin (nc + nf)) (Fin (nc + nf)) K) : Matrix (Fin nc) (Fin nc) K :=
  fun i j => M (Fin.castAdd nf i) (Fin.castAdd nf j)
/-- `topRightCorner(nc, nf)` -/
def topRight {nc nf : Nat} (M : Matrix (Fin (nc + nf)) (Fin (nc + nf)) K) : Matrix (Fin nc) (Fin nf) K :=
  fun i j => M (Fin.castAdd nf i) (Fin.natAdd nc j)
/-- `bottomLeftCorner(nf, nc)` -/
def bottomLeft {nc nf : Nat} (M : Matrix (Fin (nc + nf)) (Fin (nc + nf)) K) : Matrix (Fin nf) (Fin nc) K :=
  fun i j => M (Fin.natAdd nc i) (Fin.castAdd nf j)
/-- `bottomRightCorner(nf, nf)` -/
def bottomRight {nc nf : Nat} (M : Matrix (Fin (nc + nf)) (Fin (nc + nf)) K) : Matrix (Fin nf) (Fin nf) K :=
  fun i j => M (Fin.natAdd nc i) (Fin.natAdd nc j)

/-- `v.head(n)` -/
def head (v : List K) (n : Nat) : Fin n → K := fun i => v.getD i 0
/-- `v.tail(n)` -/
def tail (v : List K) (n : Nat) : Fin n → K := fun i => v.getD (v.length - n + i) 0

/-- Solve with a matrix right-hand side, column by column. -/
def LDLT.solveMat (F : LDLT K) {n m : Nat} (A : Matrix (Fin n) (Fin n) K) (B : Matrix (Fin n) (Fin m) K) :
    Matrix (Fin n) (Fin m) K := fun i j => F.solve A (fun r => B r j) i

/-- Result of `static_condensation_impl`. -/
structure Condensed (K : Type) (nc nf : Nat) where
  AC : Matrix (Fin nf) (Fin nf) K
  bC : Fin nf → K
  AL : Matrix (Fin nc) (Fin nf) K
  bL : Fin nc → K

/-- `static_condensation_impl`, `scalar_hho_condensation.hpp:44-96`. -/
def condense (F : LDLT K) (nc nf : Nat) (lhs : Matrix (Fin (nc + nf)) (Fin (nc + nf)) K) (rhs : List K) :
    Outcome (Condensed K nc nf) :=
  if rhs.length ≠ nc ∧ rhs.length ≠ nc + nf then .throws "static condensation: incorrect size of the rhs"
  else
    let cellRhs := head rhs nc
    let facesRhs : Fin nf → K := if rhs.length = nc + nf then tail rhs nf else 0
    if F.success (topLeft lhs) then
      let AL := F.solveMat (topLeft lhs) (topRight lhs)
      let bL := F.solve (topLeft lhs) cellRhs
      .ok ⟨bottomRight lhs - bottomLeft lhs * AL, facesRhs - bottomLeft lhs *ᵥ bL, AL, bL⟩
    else .throws "static condensation: K_TT is not positive definite"

/-- Writing cell and face parts into one vector: `ret.head(nc) = solT; ret.tail(nf) = solF`. -/
def join {nc nf : Nat} (t : Fin nc → K) (f : Fin nf → K) : Fin (nc + nf) → K := Fin.append t f

/-- `static_decondensation_impl`, `scalar_hho_condensation.hpp:98-130`. The success flag is not read. -/
def decondense (F : LDLT K) (nc nf : Nat) (lhs : Matrix (Fin (nc + nf)) (Fin (nc + nf)) K) (rhs : List K)
    (solF : Fin nf → K) : Outcome (Fin (nc + nf) → K) :=
  if rhs.length < nc then .throws "static condensation: incorrect size of the rhs"
  else .ok (join (F.solve (topLeft lhs) (head rhs nc - topRight lhs *ᵥ solF)) solF)

/-- `make_scalar_static_decondensation_withMatrix`, `scalar_hho_condensation.hpp:182-196`. -/
def decondenseWith {nc nf : Nat} (AL : Matrix (Fin nc) (Fin nf) K) (bL : Fin nc → K) (solF : Fin nf → K) :
    Fin (nc + nf) → K := join (bL - AL *ᵥ solF) solF

/-- `schur`, `hho_assemblers.hpp:215-243`: the right-hand side has the size of the matrix (assert). -/
def schur (F : LDLT K) (nc nf : Nat) (lhs : Matrix (Fin (nc + nf)) (Fin (nc + nf)) K) (rhs : Fin (nc + nf) → K) :
    Outcome (Matrix (Fin nf) (Fin nf) K × (Fin nf → K)) :=
  if F.success (topLeft lhs) then
    .ok (bottomRight lhs - bottomLeft lhs * F.solveMat (topLeft lhs) (topRight lhs),
      (fun i => rhs (Fin.natAdd nc i)) - bottomLeft lhs *ᵥ F.solve (topLeft lhs) (fun i => rhs (Fin.castAdd nf i)))
  else .throws "Schur: MTT is not positive definite"

/-- `deschur`, `hho_assemblers.hpp:245-275`. -/
def deschur (F : LDLT K) (nc nf : Nat) (lhs : Matrix (Fin (nc + nf)) (Fin (nc + nf)) K) (rhs : Fin (nc + nf) → K)
    (solF : Fin nf → K) : Outcome (Fin (nc + nf) → K) :=
  if F.success (topLeft lhs) then
    .ok (join (F.solve (topLeft lhs) ((fun i => rhs (Fin.castAdd nf i)) - topRight lhs *ᵥ solF)) solF)
  else .throws "Schur: MTT is not positive definite"

/-- `vem::schur`, `methods_vem_2d.hpp:185-214`: boundary unknowns come first. -/
def vemSchur (F : LDLT K) (nf nt : Nat) (lhs : Matrix (Fin (nf + nt)) (Fin (nf + nt)) K) (rhs : Fin (nf + nt) → K) :
    Outcome (Matrix (Fin nf) (Fin nf) K × (Fin nf → K)) :=
  if F.success (bottomRight lhs) then
    .ok (topLeft lhs - topRight lhs * F.solveMat (bottomRight lhs) (bottomLeft lhs),
      (fun i => rhs (Fin.castAdd nt i)) - topRight lhs *ᵥ F.solve (bottomRight lhs) (fun i => rhs (Fin.natAdd nf i)))
  else .throws "Schur: MTT is not positive definite"

/-- `vem::deschur`, `methods_vem_2d.hpp:216-245`. -/
def vemDeschur (F : LDLT K) (nf nt : Nat) (lhs : Matrix (Fin (nf + nt)) (Fin (nf + nt)) K) (rhs : Fin (nf + nt) → K)
    (solF : Fin nf → K) : Outcome (Fin (nf + nt) → K) :=
  if F.success (bottomRight lhs) then
    .ok (join solF (F.solve (bottomRight lhs) ((fun i => rhs (Fin.natAdd nf i)) - bottomLeft lhs *ᵥ solF)))
  else .throws "Schur: MTT is not positive definite"

end Verif.Condensation
