import Mathlib.Algebra.BigOperators.Fin
import Mathlib.Algebra.Field.Basic
/-!
Fourth-order tensors in index notation.
-/
namespace Verif.Spec
open Finset
variable {K : Type} [Field K] {D : Nat}

/-- A tensor by its coefficients `T_ijkl`. -/
abbrev Tensor4 (K : Type) (D : Nat) := Fin D → Fin D → Fin D → Fin D → K

/-- `(T : M)_ij = T_ijkl M_kl`. -/
def Tensor4.act (T : Tensor4 K D) (M : Fin D → Fin D → K) : Fin D → Fin D → K := fun i j => ∑ k, ∑ l, T i j k l * M k l

/-- `(T : U)_ijkl = T_ijpq U_pqkl`. -/
def Tensor4.comp (T U : Tensor4 K D) : Tensor4 K D := fun i j k l => ∑ p, ∑ q, T i j p q * U p q k l

end Verif.Spec
