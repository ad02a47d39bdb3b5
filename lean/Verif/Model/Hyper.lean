import Verif.Model.Plastic
import Mathlib.Analysis.SpecialFunctions.Log.Base
import Mathlib.Analysis.SpecialFunctions.Pow.Real
/-!
The hyperelastic laws `mechanics/behaviors/laws/Neohookean/Neohookean_qp.hpp` and
`mechanics/behaviors/laws/Cavitation/Cavitation_qp.hpp`.

Scalars are the reals, `log`, `log10`, `sqrt` and `pow` the exact functions. The literals `0.25`, `0.5`, `5.0 / 4.0` are
exact in floating point.
-/
noncomputable section
namespace Verif.Hyper
open Verif.Tensor Verif.TensorConv Verif.Mech

/-- The message of the default branches. -/
def badType {α : Type} : Outcome α := .throws "NeoHookeanLaw: m_type have to be <= 6"

/-- `compute_U`, `Neohookean_qp.hpp:79-93` and `Cavitation_qp.hpp:82-96`. -/
def volU (type : Nat) (J : ℝ) : Outcome ℝ :=
  match type with
  | 1 => .ok (Real.log J)
  | 2 => .ok (J - 1)
  | 3 => .ok (Real.logb 10 J)
  | 4 => .ok (1 / (1 - J))
  | 5 => .ok (J * J - 1)
  | 6 => .ok (Real.sqrt ((J * J - 1 - 2 * Real.log J) / 2))
  | _ => badType

/-- `compute_T1`, `Neohookean_qp.hpp:95-109` and `Cavitation_qp.hpp:98-112`. -/
def volT1 (type : Nat) (J : ℝ) : Outcome ℝ :=
  match type with
  | 1 => .ok (Real.log J)
  | 2 => .ok (J * (J - 1))
  | 3 => .ok (Real.log J / (Real.log 10 * Real.log 10))
  | 4 => .ok ((J - 1) / (J * J))
  | 5 => .ok (2 * J * J * (J * J - 1))
  | 6 => .ok ((J * J - 1) / 2)
  | _ => badType

/-- `compute_T2`, `Neohookean_qp.hpp:111-125` and `Cavitation_qp.hpp:114-128`. -/
def volT2 (type : Nat) (J : ℝ) : Outcome ℝ :=
  match type with
  | 1 => .ok 1
  | 2 => .ok (J * (2 * J - 1))
  | 3 => .ok (1 / (Real.log 10 * Real.log 10))
  | 4 => .ok ((2 - J) / (J * J))
  | 5 => .ok (J * J * (8 * J * J - 4))
  | 6 => .ok (J * J)
  | _ => badType

/-- The check of the determinant at the beginning of every evaluation. -/
def checked {α : Type} (F : Mat ℝ 3) (k : ℝ → Outcome α) : Outcome α :=
  if det F ≤ 0 then .throws "J <= 0" else k (det F)

/-! ### Neo-Hookean -/

/-- `compute_stress3D`, `Neohookean_qp.hpp:158-172`, of `m_estrain_curr = F`; `compute_stressPrev3D` (`:180-194`) is the
same of `m_estrain_prev`. -/
def neoStress (d : Data) (F : Mat ℝ 3) : Outcome (Mat ℝ 3) :=
  checked F fun J => (volT1 d.type J).bind fun T1 =>
    .ok (d.mu • F + (d.lambda * T1 - d.mu) • tpose (inv F))

/-- `compute_tangent_moduli_A`, `Neohookean_qp.hpp:127-148`. -/
def neoTangent (d : Data) (F : Mat ℝ 3) : Outcome (Tens ℝ 3) :=
  checked F fun J => (volT1 d.type J).bind fun T1 => (volT2 d.type J).bind fun T2 =>
    let invF := inv F
    let invFt := tpose invF
    .ok (d.mu • (identity ℝ 3 + productInf invFt invF) +
      d.lambda • (T2 • kronecker invFt invFt - T1 • productInf invFt invF))

/-- `compute_energy`, `Neohookean_qp.hpp:196-213`. The call of `convertFtoCauchyGreenRight` is read as
`mechanics::convertFtoCauchyGreenRight`, without which the member does not compile. -/
def neoEnergy (d : Data) (F : Mat ℝ 3) : Outcome ℝ :=
  checked F fun J =>
    let Wiso := d.mu / 2 * (trace (cauchyGreenRight F) - 3)
    (volU d.type J).bind fun U => .ok (Wiso + (d.lambda / 2 * U * U - d.mu * Real.log J))

/-- `compute_whole3D`, `Neohookean_qp.hpp:215-225`. -/
def neo3D (F : Mat ℝ 3) (d : Data) : Outcome (Mat ℝ 3 × Tens ℝ 3) :=
  (neoStress d F).bind fun P => (neoTangent d F).bind fun A => .ok (P, A)

/-- `compute_whole` in 2D, `Neohookean_qp.hpp:227-237`. -/
def neo2D (F : Mat ℝ 2) (d : Data) : Outcome (Mat ℝ 2 × Tens ℝ 2) :=
  (neo3D (matrix3DOne F) d).bind fun r => .ok (matrix2 r.1, tensor2 r.2)

/-! ### Cavitation -/

/-- `compute_stress3D`, `Cavitation_qp.hpp:165-183`. -/
def cavStress (d : Data) (F : Mat ℝ 3) : Outcome (Mat ℝ 3) :=
  checked F fun J => (volT1 d.type J).bind fun T1 =>
    let C := mul (tpose F) F
    .ok ((d.mu * (3 * trace C) ^ (-1 / 4 : ℝ)) • F + (d.lambda * T1 - d.mu) • tpose (inv F))

/-- `compute_tangent_moduli_A`, `Cavitation_qp.hpp:130-157`. -/
def cavTangent (d : Data) (F : Mat ℝ 3) : Outcome (Tens ℝ 3) :=
  checked F fun J =>
    let invF := inv F
    let invFt := tpose invF
    let traceC := trace (cauchyGreenRight F)
    (volT1 d.type J).bind fun T1 => (volT2 d.type J).bind fun T2 =>
    let Aiso : Tens ℝ 3 := (d.mu * (3 : ℝ) ^ (-1 / 4 : ℝ)) •
      (traceC ^ (-1 / 4 : ℝ) • identity ℝ 3 - (1 / 2 * traceC ^ (-5 / 4 : ℝ)) • kronecker F F)
    let Avol : Tens ℝ 3 := (d.lambda * T2) • kronecker invFt invFt + (d.mu - d.lambda * T1) • productInf invFt invF
    .ok (Aiso + Avol)

/-- `compute_energy`, `Cavitation_qp.hpp:211-228`. -/
def cavEnergy (d : Data) (F : Mat ℝ 3) : Outcome ℝ :=
  checked F fun J =>
    let C := mul (tpose F) F
    let Wiso := 2 * d.mu / (3 : ℝ) ^ (5 / 4 : ℝ) * trace C ^ (3 / 4 : ℝ)
    (volU d.type J).bind fun U => .ok (Wiso + (d.lambda / 2 * U * U - d.mu * Real.log J))

/-- `compute_whole3D`, `Cavitation_qp.hpp:230-240`. -/
def cav3D (F : Mat ℝ 3) (d : Data) : Outcome (Mat ℝ 3 × Tens ℝ 3) :=
  (cavStress d F).bind fun P => (cavTangent d F).bind fun A => .ok (P, A)

/-- `compute_whole` in 2D, `Cavitation_qp.hpp:242-252`. -/
def cav2D (F : Mat ℝ 2) (d : Data) : Outcome (Mat ℝ 2 × Tens ℝ 2) :=
  (cav3D (matrix3DOne F) d).bind fun r => .ok (matrix2 r.1, tensor2 r.2)

end Verif.Hyper
