import Verif.Model.Outcome
/-!
Small arithmetic helpers: `common/util.h`, `libdiskpp/src/common/util.cpp`, `bases/bases_all.hpp`,
and the basis size formulas of `bases/`.
-/
namespace Verif.Util

/-- `iexp_pow` (recursive version), `bases/bases_all.hpp:37-48`. -/
def iexpPow {R : Type} [Mul R] [One R] (x : R) (n : Nat) : R :=
  if _h : n = 0 then 1
  else if n % 2 = 0 then iexpPow (x * x) (n / 2)
  else x * iexpPow (x * x) ((n - 1) / 2)
termination_by n
decreasing_by all_goals omega

/-- Number of ring multiplications performed by the recursive `iexp_pow`
(one squaring per level, one more for odd exponents). -/
def iexpPowMuls (n : Nat) : Nat :=
  if _h : n = 0 then 0
  else if n % 2 = 0 then 1 + iexpPowMuls (n / 2)
  else 2 + iexpPowMuls ((n - 1) / 2)
termination_by n
decreasing_by all_goals omega

/-- The loop of the iterative `iexp_pow`, `common/util.h:40-55`, state `(x, y, n)`. -/
def iexpPowLoop {R : Type} [Mul R] (x y : R) (n : Nat) : R :=
  if _h : n > 1 then
    if n % 2 = 0 then iexpPowLoop (x * x) y (n / 2)
    else iexpPowLoop (x * x) (x * y) ((n - 1) / 2)
  else x * y
termination_by n
decreasing_by all_goals omega

/-- `iexp_pow` (iterative version), `common/util.h:33-56`. -/
def iexpPowIter {R : Type} [Mul R] [One R] (x : R) (n : Nat) : R :=
  if n = 0 then 1 else iexpPowLoop x 1 n

/-- `fact`, `libdiskpp/src/common/util.cpp:27-30`; `unsigned int` is arithmetic modulo 2^32. -/
def fact : Nat → Nat
  | 0 => 1
  | n + 1 => if n + 1 < 2 then 1 else ((n + 1) * fact n) % 2 ^ 32

/-- `binomial`, `libdiskpp/src/common/util.cpp:32-38`; division by zero is undefined behaviour.
Arguments are 32-bit values, i.e. below 2^32. -/
def binomial (n k : Nat) : Outcome Nat :=
  if n < k then
    if fact k = 0 then .ub "division by zero" else .ok (fact n / fact k)
  else
    let den := (fact (n - k) * fact k) % 2 ^ 32
    if den = 0 then .ub "division by zero" else .ok (fact n / den)

/-- `scalar_basis_size`, `bases/bases_scalar.hpp:42-55`: the loop `i = 1..d` on the pair
`(num, den)`, then the integer division. `size_t` overflow is not modelled. -/
def basisLoop (k : Nat) : (d : Nat) → Nat × Nat
  | 0 => (1, 1)
  | d + 1 => let p := basisLoop k d; (p.1 * (k + (d + 1)), p.2 * (d + 1))

/-- See `basisLoop`. -/
def scalarBasisSize (k d : Nat) : Nat := (basisLoop k d).1 / (basisLoop k d).2

/-- `vector_basis_size`, `bases/bases_vector.hpp:40-53`: same loop, times the vector dimension. -/
def vectorBasisSize (k sd vd : Nat) : Nat := vd * ((basisLoop k sd).1 / (basisLoop k sd).2)

/-- `matrix_basis_size`, `bases/bases_matrix.hpp:40-53`. -/
def matrixBasisSize (k sd md : Nat) : Nat := md * md * ((basisLoop k sd).1 / (basisLoop k sd).2)

/-- `sym_matrix_basis_size`, `bases/bases_matrix.hpp:230-257`. The `default:` branch builds an
exception object without throwing it, so `md` stays 0. -/
def symMatrixBasisSize (k sd vd : Nat) : Nat :=
  let md := if vd = 3 then 6 else if vd = 2 then 3 else 0
  if k = 0 then md else md * ((basisLoop k sd).1 / (basisLoop k sd).2)

/-- `size_of_degree` of the new 1D cell / 2D face bases, `bases/bases_new.hpp:185-187,493-495`. -/
def sizeOfDegree1 (k : Nat) : Nat := k + 1
/-- `size_of_degree` of the new 2D cell / 3D face bases, `bases/bases_new.hpp:398-400,798-800`. -/
def sizeOfDegree2 (k : Nat) : Nat := ((k + 2) * (k + 1)) / 2
/-- `size_of_degree` of the new 3D cell basis, `bases/bases_new.hpp:651-653`. The code divides by
`6.0` and truncates on return; the product is divisible by 6, so this is the integer division. -/
def sizeOfDegree3 (k : Nat) : Nat := ((k + 3) * (k + 2) * (k + 1)) / 6

/-- `vector_basis_size_RT`, `bases/bases_vector.hpp:806-824`. -/
def vectorBasisSizeRT (k sd vd : Nat) : Outcome Nat :=
  if k = 0 then .throws "degree has to be > 0"
  else if sd = 3 ∧ vd = 3 then .ok (k * (k + 1) * (k + 3) / 2)
  else if sd = 2 ∧ vd = 2 then .ok (k * (k + 2))
  else .throws "unknown case"

/-- `matrix_basis_size_RT`, `bases/bases_matrix.hpp:448-456`. -/
def matrixBasisSizeRT (k sd md : Nat) : Outcome Nat :=
  if k = 0 then .throws "degree has to be > 0"
  else (vectorBasisSizeRT k sd md).bind fun s => .ok (sd * s)

/-- `harmonic_basis_size`, `bases/bases_scalar.hpp:1151-1166` (without `USE_H2DT`). -/
def harmonicBasisSize (k d : Nat) : Outcome Nat :=
  if d = 2 then .ok (2 * k + 1)
  else if d = 3 then .ok ((k + 1) * (k + 1))
  else .throws "not yet implemented"

end Verif.Util
