import Mathlib.Data.Matrix.Mul
import Mathlib.Algebra.Field.Defs
/-!
Local matrices and right-hand sides by quadrature, `bases/bases_utils.hpp`.

A basis of `n` functions with values in `N` components (`N = 1` for scalar bases) evaluated at a point is an
`n × N` matrix, as returned by `eval_functions` and `eval_gradients`. Quadrature points come from
`integrate(msh, elem, ·)`, here a list of points and weights given for each degree.
-/
namespace Verif.LocalMatrix
open Matrix

variable {K : Type} [Field K] {n N : Nat} {P : Type}

/-- A quadrature point: `qp.point()`, `qp.weight()`. -/
structure QP (P K : Type) where
  pt : P
  w : K

/-- `outer_product(a, b)`, `bases/bases_utils.hpp:145-150`: `a * b.transpose()`. -/
def outer (a b : Matrix (Fin n) (Fin N) K) : Matrix (Fin n) (Fin n) K := a * bᵀ

/-- Accumulation loop of `make_mass_matrix` and `make_stiffness_matrix`, `bases/bases_utils.hpp:223-228`
and `:280-285`. -/
def accumulate (ev : P → Matrix (Fin n) (Fin N) K) : List (QP P K) → Matrix (Fin n) (Fin n) K → Matrix (Fin n) (Fin n) K
  | [], ret => ret
  | q :: qs, ret => accumulate ev qs (ret + outer (q.w • ev q.pt) (ev q.pt))

/-- `make_mass_matrix`, `bases/bases_utils.hpp:208-232`. -/
def massMatrix (integrate : Nat → List (QP P K)) (degree di : Nat) (phi : P → Matrix (Fin n) (Fin N) K) :
    Matrix (Fin n) (Fin n) K :=
  accumulate phi (integrate (2 * (degree + di))) 0

/-- `make_stiffness_matrix`, `bases/bases_utils.hpp:264-290`. -/
def stiffnessMatrix (integrate : Nat → List (QP P K)) (degree : Nat) (dphi : P → Matrix (Fin n) (Fin N) K) :
    Matrix (Fin n) (Fin n) K :=
  if degree > 0 then accumulate dphi (integrate (2 * (degree - 1))) 0 else 0

/-- Accumulation loop with a material tensor, `bases/bases_utils.hpp:252-258`:
`inner_product(qp_m, phi)` multiplies each row of `phi` by the tensor (`:80-93`). -/
def accumulateMat (ev : P → Matrix (Fin n) (Fin N) K) (mat : P → Matrix (Fin N) (Fin N) K) :
    List (QP P K) → Matrix (Fin n) (Fin n) K → Matrix (Fin n) (Fin n) K
  | [], ret => ret
  | q :: qs, ret => accumulateMat ev mat qs (ret + outer (ev q.pt) (ev q.pt * (q.w • mat q.pt)ᵀ))

/-- `make_mass_matrix` with a material tensor, `bases/bases_utils.hpp:237-261`. -/
def massMatrixMat (integrate : Nat → List (QP P K)) (degree di : Nat) (phi : P → Matrix (Fin n) (Fin N) K)
    (mat : P → Matrix (Fin N) (Fin N) K) : Matrix (Fin n) (Fin n) K :=
  accumulateMat phi mat (integrate (2 * (degree + di))) 0

/-- Accumulation loop of `make_rhs`, `bases/bases_utils.hpp:305-310`. -/
def accumulateRhs (phi : P → Matrix (Fin n) (Fin N) K) (f : P → Fin N → K) : List (QP P K) → (Fin n → K) → (Fin n → K)
  | [], ret => ret
  | q :: qs, ret => accumulateRhs phi f qs (ret + phi q.pt *ᵥ (q.w • f q.pt))

/-- `make_rhs`, `bases/bases_utils.hpp:292-313`. -/
def makeRhs (integrate : Nat → List (QP P K)) (degree di : Nat) (phi : P → Matrix (Fin n) (Fin N) K)
    (f : P → Fin N → K) : Fin n → K :=
  accumulateRhs phi f (integrate (2 * (degree + di))) 0

/-- `eval(dofs, basis)`, `bases/bases_utils.hpp:446-453`: the function with the given coefficients. -/
def evalDofs (v : Fin n → K) (basis : Matrix (Fin n) (Fin N) K) : Fin N → K := basisᵀ *ᵥ v

end Verif.LocalMatrix
