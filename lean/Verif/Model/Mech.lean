import Verif.Model.TensorConv
import Verif.Model.Sort
import Mathlib.LinearAlgebra.Matrix.NonsingularInverse
/-!
Strain measures, stress measures and material parameters of the mechanics part:
`mechanics/deformation_tensors.hpp`, `mechanics/stress_tensors.hpp`, `mechanics/behaviors/maths_utils.hpp`,
`mechanics/behaviors/maths_jacobian_derivate.hpp`, `mechanics/behaviors/laws/materialData.hpp`.

Scalars are the reals. Eigen's `determinant()` and `inverse()` are the exact ones; a division by zero is not
distinguished from other values, so theorems about conversions assume an invertible matrix.
-/
noncomputable section
namespace Verif.Mech
open Verif.Tensor Verif.TensorConv Finset

variable {D : Nat}

/-- `A * B` -/
def mul (A B : Mat ℝ D) : Mat ℝ D := fun i j => ∑ k, A i k * B k j
/-- `A.transpose()` -/
def tpose (A : Mat ℝ D) : Mat ℝ D := fun i j => A j i
/-- `Identity()` -/
def idm (D : Nat) : Mat ℝ D := fun i j => if i = j then 1 else 0
/-- `A.trace()` -/
def trace (A : Mat ℝ D) : ℝ := ∑ i, A i i
/-- `A.determinant()` -/
def det (A : Mat ℝ D) : ℝ := Matrix.det (Matrix.of A)
/-- `A.inverse()` -/
def inv (A : Mat ℝ D) : Mat ℝ D := Matrix.of.symm ((Matrix.of A : Matrix (Fin D) (Fin D) ℝ)⁻¹)
/-- `A.squaredNorm()` -/
def sqNorm (A : Mat ℝ D) : ℝ := inner A A
/-- `A.norm()` -/
def norm (A : Mat ℝ D) : ℝ := Real.sqrt (sqNorm A)

/-- `deviator`, `maths_utils.hpp:36-41`. -/
def deviator (A : Mat ℝ D) : Mat ℝ D := A - (trace A / D) • idm D
/-- `spheric`, `maths_utils.hpp:44-49`. -/
def spheric (A : Mat ℝ D) : Mat ℝ D := (trace A / D) • idm D

/-- `NormFroFirstDerivate`, `maths_utils.hpp:52-64`: the diagonal is multiplied by `1 - 1 / DIM`, the result divided by
`norm * sqrt(norm)`, with a minus sign. -/
def normFroFirstDerivate (dev : Mat ℝ D) : Mat ℝ D :=
  let n := norm dev
  fun i j => -(if i = j then dev i j * (1 - 1 / (D : ℝ)) else dev i j) / (n * Real.sqrt n)

/-! ### `mechanics/deformation_tensors.hpp` -/

/-- `convertGtoLinearizedStrain`, `:42-47`. -/
def linearizedStrain (G : Mat ℝ D) : Mat ℝ D := (1 / 2 : ℝ) • mul G (tpose G)
/-- `convertGtoF`, `:51-56`. -/
def gToF (G : Mat ℝ D) : Mat ℝ D := G + idm D
/-- `convertFtoG`, `:58-63`. -/
def fToG (F : Mat ℝ D) : Mat ℝ D := F - idm D
/-- `convertFtoCauchyGreenRight`, `:67-72`. -/
def cauchyGreenRight (F : Mat ℝ D) : Mat ℝ D := mul (tpose F) F
/-- `convertFtoCauchyGreenLeft`, `:84-89`. -/
def cauchyGreenLeft (F : Mat ℝ D) : Mat ℝ D := mul F (tpose F)
/-- `convertCauchyGreenRighttoGreenLagrange`, `:101-106`. -/
def crToGreenLagrange (C : Mat ℝ D) : Mat ℝ D := (1 / 2 : ℝ) • (C - idm D)
/-- `convertFtoGreenLagrange`, `:108-114`. -/
def greenLagrange (F : Mat ℝ D) : Mat ℝ D := crToGreenLagrange (cauchyGreenRight F)
/-- `convertGtoGreenLagrange`, `:116-122`. -/
def gToGreenLagrange (G : Mat ℝ D) : Mat ℝ D := crToGreenLagrange (cauchyGreenRight (gToF G))

/-! ### `mechanics/stress_tensors.hpp` -/

/-- `convertPK1toPK2`, `:45-50`. -/
def pk1ToPk2 (P F : Mat ℝ D) : Mat ℝ D := mul (inv F) P
/-- `convertPK2toPK1`, `:53-58`. -/
def pk2ToPk1 (S F : Mat ℝ D) : Mat ℝ D := mul F S
/-- `convertPK1toCauchy`, `:61-66`. -/
def pk1ToCauchy (P F : Mat ℝ D) : Mat ℝ D := (1 / det F) • mul P (tpose F)
/-- `convertCauchytoPK1`, `:69-75`. -/
def cauchyToPk1 (T F : Mat ℝ D) : Mat ℝ D := mul (det F • T) (tpose (inv F))
/-- `convertCauchytoPK2`, `:78-84`. -/
def cauchyToPk2 (T F : Mat ℝ D) : Mat ℝ D := mul (mul (det F • inv F) T) (tpose (inv F))
/-- `convertPK2toCauchy`, `:87-92`. -/
def pk2ToCauchy (S F : Mat ℝ D) : Mat ℝ D := (1 / det F) • mul (mul F S) (tpose F)
/-- `VonMisesCriteria`, `:95-101`. -/
def vonMises (A : Mat ℝ D) : ℝ := Real.sqrt (3 / 2 * sqNorm (deviator A))

/-! ### `maths_jacobian_derivate.hpp` (its `#include` of `bevaviors/maths_tensor.hpp` names a missing directory, so
the header compiles only where that is repaired) -/

/-- `JacobianFirstDerivate` in 2D, `:49-62`. -/
def jacobianFirst2 (M : Mat ℝ 2) : Mat ℝ 2 := ![![M 1 1, -M 1 0], ![-M 0 1, M 0 0]]

/-- `JacobianFirstDerivate` in 3D, `:64-83`. -/
def jacobianFirst3 (M : Mat ℝ 3) : Mat ℝ 3 :=
  ![![M 1 1 * M 2 2 - M 2 1 * M 1 2, M 1 2 * M 2 0 - M 2 2 * M 1 0, M 1 0 * M 2 1 - M 1 1 * M 2 0],
    ![M 0 2 * M 2 1 - M 2 2 * M 0 1, M 0 0 * M 2 2 - M 0 2 * M 2 0, M 2 0 * M 0 1 - M 0 0 * M 2 1],
    ![M 0 1 * M 1 2 - M 1 1 * M 0 2, M 0 2 * M 1 0 - M 0 0 * M 1 2, M 0 0 * M 1 1 - M 0 1 * M 1 0]]

/-- A list of assignments `ret(r, c) = v` to a zero tensor. -/
def assignAll (w : List (Nat × Nat × ℝ)) : Tens ℝ D :=
  w.foldl (fun A e r c => if r.val = e.1 ∧ c.val = e.2.1 then e.2.2 else A r c) zero

/-- `JacobianSecondDerivate` in 2D, `:94-107`. -/
def jacobianSecond2 (_M : Mat ℝ 2) : Tens ℝ 2 := assignAll [(1, 1, 1), (1, 2, -1), (2, 1, -1), (2, 2, 1)]

/-- The assignments of `JacobianSecondDerivate` in 3D, `:109-156`. -/
def jacobianSecondWrites (M : Mat ℝ 3) : List (Nat × Nat × ℝ) := [
  (1, 1, M 2 2), (1, 2, -M 2 1), (1, 3, -M 2 2), (2, 1, -M 1 2), (2, 2, M 1 1), (2, 3, M 1 2),
  (3, 1, -M 2 2), (3, 2, M 2 1), (3, 3, M 2 2),
  (1, 5, M 2 0), (1, 6, M 2 1), (1, 7, -M 2 0), (2, 5, -M 1 0), (2, 6, -M 1 1), (2, 7, M 1 0),
  (3, 5, -M 2 0), (3, 6, -M 2 1), (3, 7, M 2 0),
  (5, 1, M 0 2), (5, 2, -M 0 1), (5, 3, -M 0 2), (6, 1, M 1 2), (6, 2, -M 1 1), (6, 3, -M 2 1),
  (7, 1, -M 0 2), (7, 2, M 0 1), (7, 3, M 0 2),
  (5, 5, M 0 0), (5, 6, M 0 1), (5, 7, -M 0 0), (6, 5, M 1 0), (6, 6, M 1 1), (6, 7, -M 1 0),
  (7, 5, -M 0 0), (7, 6, -M 0 1), (7, 7, M 0 0)]

/-- `JacobianSecondDerivate` in 3D. -/
def jacobianSecond3 (M : Mat ℝ 3) : Tens ℝ 3 := assignAll (jacobianSecondWrites M)

/-! ### `materialData.hpp` -/

/-- `MaterialData`, `:59-72`, without the parameters of MFront. A point of the curve is `(p, R(p))`. -/
structure Data where
  lambda : ℝ
  mu : ℝ
  H : ℝ
  K : ℝ
  sigmaY0 : ℝ
  type : Nat
  curve : List (ℝ × ℝ)

/-- `setMu(E, nu)`, `:101-105`. -/
def Data.setMu (d : Data) (E nu : ℝ) : Data := { d with mu := E / (2 * (1 + nu)) }
/-- `setLambda(E, nu)`, `:113-117`. -/
def Data.setLambda (d : Data) (E nu : ℝ) : Data :=
  { d with lambda := E * nu / ((1 + nu) * (1 - 2 * nu)) }
/-- `setH(E, ET, K)`, `:125-129`. -/
def Data.setH (d : Data) (E ET K : ℝ) : Data := { d with H := E * ET / (E - ET) - 3 / 2 * K }
/-- `setK`, `:131-135`. -/
def Data.setK (d : Data) (K : ℝ) : Data := { d with K := K }
/-- `getE`, `:167-171`. -/
def Data.getE (d : Data) : ℝ := d.mu * (3 * d.lambda + 2 * d.mu) / (d.lambda + d.mu)
/-- `getNu`, `:173-177`. -/
def Data.getNu (d : Data) : ℝ := d.lambda / (2 * (d.lambda + d.mu))
/-- `getET`, `:179-184`. -/
def Data.getET (d : Data) : ℝ :=
  d.getE * (d.H + 3 / 2 * d.K) / (d.H + 3 / 2 * d.K + d.getE)

/-- The default constructor, `:75-78`; `big` is `std::numeric_limits<scalar_type>::max()`. -/
def Data.default (big : ℝ) : Data := ⟨1, 1, 0, 0, big, 1, []⟩
/-- The constructor from five parameters, `:80-88`. -/
def Data.of5 (lambda mu H K sigmaY0 : ℝ) : Data := ⟨lambda, mu, H, K, sigmaY0, 0, []⟩
/-- The constructor from the Lame parameters, `:90-93`. -/
def Data.of2 (big lambda mu : ℝ) : Data := ⟨lambda, mu, 0, 0, big, 0, []⟩
/-- `addCurvePoint`, `:155-165`. -/
def Data.addCurvePoint (d : Data) (p R : ℝ) : Data := { d with curve := d.curve ++ [(p, R)] }

/-- The test of `checkRpCurve` on neighbours. -/
def tooClose (eps : ℝ) : List (ℝ × ℝ) → Bool
  | a :: b :: r => decide (|a.1 - b.1| < eps) || tooClose eps (b :: r)
  | _ => false

/-- `checkRpCurve`, `:228-246`: sorts by `p` and throws if two values are closer than the machine epsilon `eps`. -/
def Data.checkRpCurve (eps : ℝ) (d : Data) : Outcome Data :=
  let c := Sort.sortBy (fun a b => decide (a.1 < b.1)) d.curve
  if tooClose eps c then .throws "RpCurve: You have two values with the same p" else .ok { d with curve := c }

end Verif.Mech
