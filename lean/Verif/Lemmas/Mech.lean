import Verif.Model.Mech
import Verif.Lemmas.Tensor
import Verif.Spec.Mech
import Mathlib.Analysis.Calculus.Deriv.Add
import Mathlib.Analysis.Calculus.Deriv.Mul
import Mathlib.Tactic.FinCases
import Mathlib.Tactic.Ring
import Mathlib.Tactic.Linarith
import Mathlib.Tactic.FieldSimp
/-!
Algebra of the small matrices of `Verif.Model.Mech`.
-/
namespace Verif.Lemmas.Mech
open Verif.Tensor Verif.TensorConv Verif.Mech Finset

variable {D : Nat}

theorem of_mul (A B : Mat ℝ D) : Matrix.of (mul A B) = Matrix.of A * Matrix.of B := by
  ext i j
  simp [mul, Matrix.mul_apply]

theorem of_tpose (A : Mat ℝ D) : Matrix.of (tpose A) = (Matrix.of A).transpose := rfl

theorem of_idm : Matrix.of (idm D) = (1 : Matrix (Fin D) (Fin D) ℝ) := by
  ext i j
  simp [idm, Matrix.one_apply]

theorem of_inv (A : Mat ℝ D) : Matrix.of (inv A) = (Matrix.of A)⁻¹ := rfl

theorem of_inj {A B : Mat ℝ D} (h : Matrix.of A = Matrix.of B) : A = B := Matrix.of.injective h

theorem mul_assoc (A B C : Mat ℝ D) : mul (mul A B) C = mul A (mul B C) :=
  of_inj (by simp only [of_mul, Matrix.mul_assoc])

theorem mul_idm (A : Mat ℝ D) : mul A (idm D) = A := of_inj (by rw [of_mul, of_idm, Matrix.mul_one])

theorem idm_mul (A : Mat ℝ D) : mul (idm D) A = A := of_inj (by rw [of_mul, of_idm, Matrix.one_mul])

theorem inv_mul {F : Mat ℝ D} (h : det F ≠ 0) : mul (inv F) F = idm D :=
  of_inj (by rw [of_mul, of_inv, of_idm, Matrix.nonsing_inv_mul _ (isUnit_iff_ne_zero.mpr h)])

theorem mul_inv {F : Mat ℝ D} (h : det F ≠ 0) : mul F (inv F) = idm D :=
  of_inj (by rw [of_mul, of_inv, of_idm, Matrix.mul_nonsing_inv _ (isUnit_iff_ne_zero.mpr h)])

theorem tpose_mul (A B : Mat ℝ D) : tpose (mul A B) = mul (tpose B) (tpose A) := by
  funext i j
  simp only [tpose, mul, mul_comm]

theorem tpose_idm : tpose (idm D) = idm D := by
  funext i j
  simp only [tpose, idm, eq_comm]

theorem tpose_tpose (A : Mat ℝ D) : tpose (tpose A) = A := rfl

theorem smul_mul (c : ℝ) (A B : Mat ℝ D) : mul (c • A) B = c • mul A B := by
  funext i j
  simp only [mul, Pi.smul_apply, smul_eq_mul, mul_sum, _root_.mul_assoc]

theorem mul_smul (c : ℝ) (A B : Mat ℝ D) : mul A (c • B) = c • mul A B := by
  funext i j
  simp only [mul, Pi.smul_apply, smul_eq_mul, mul_sum]
  exact sum_congr rfl fun k _ => by ring

theorem add_mul (A B C : Mat ℝ D) : mul (A + B) C = mul A C + mul B C := by
  funext i j
  simp only [mul, Pi.add_apply, _root_.add_mul, sum_add_distrib]

theorem mul_add (A B C : Mat ℝ D) : mul A (B + C) = mul A B + mul A C := by
  funext i j
  simp only [mul, Pi.add_apply, _root_.mul_add, sum_add_distrib]

theorem tpose_add (A B : Mat ℝ D) : tpose (A + B) = tpose A + tpose B := rfl
theorem tpose_sub (A B : Mat ℝ D) : tpose (A - B) = tpose A - tpose B := rfl
theorem tpose_smul (c : ℝ) (A : Mat ℝ D) : tpose (c • A) = c • tpose A := rfl

theorem trace_add (A B : Mat ℝ D) : trace (A + B) = trace A + trace B := by simp [trace, sum_add_distrib]
theorem trace_sub (A B : Mat ℝ D) : trace (A - B) = trace A - trace B := by simp [trace]
theorem trace_smul (c : ℝ) (A : Mat ℝ D) : trace (c • A) = c * trace A := by simp [trace, mul_sum]
theorem trace_idm : trace (idm D) = D := by simp [trace, idm]
theorem trace_zero : trace (0 : Mat ℝ D) = 0 := by simp [trace]
theorem trace_tpose (A : Mat ℝ D) : trace (tpose A) = trace A := rfl

theorem trace_deviator (hD : 0 < D) (A : Mat ℝ D) : trace (deviator A) = 0 := by
  have : (D : ℝ) ≠ 0 := by exact_mod_cast hD.ne'
  rw [deviator, trace_sub, trace_smul, trace_idm]
  field_simp
  ring

theorem inner_comm (A B : Mat ℝ D) : inner A B = inner B A := by
  simp only [inner, mul_comm]
theorem inner_add_left (A B C : Mat ℝ D) : inner (A + B) C = inner A C + inner B C := by
  simp only [inner, Pi.add_apply, _root_.add_mul, sum_add_distrib]
theorem inner_sub_left (A B C : Mat ℝ D) : inner (A - B) C = inner A C - inner B C := by
  simp only [inner, Pi.sub_apply, _root_.sub_mul, sum_sub_distrib]
theorem inner_smul_left (c : ℝ) (A B : Mat ℝ D) : inner (c • A) B = c * inner A B := by
  simp only [inner, Pi.smul_apply, smul_eq_mul, mul_sum, _root_.mul_assoc]
theorem inner_add_right (A B C : Mat ℝ D) : inner A (B + C) = inner A B + inner A C := by
  rw [inner_comm, inner_add_left, inner_comm B, inner_comm C]
theorem inner_sub_right (A B C : Mat ℝ D) : inner A (B - C) = inner A B - inner A C := by
  rw [inner_comm, inner_sub_left, inner_comm B, inner_comm C]
theorem inner_smul_right (c : ℝ) (A B : Mat ℝ D) : inner A (c • B) = c * inner A B := by
  rw [inner_comm, inner_smul_left, inner_comm]
theorem inner_zero_left (A : Mat ℝ D) : inner 0 A = 0 := by simp [inner]
theorem inner_idm (A : Mat ℝ D) : inner A (idm D) = trace A := by simp [inner, idm, trace]
theorem inner_tpose (A B : Mat ℝ D) : inner (tpose A) (tpose B) = inner A B := by
  simp only [inner, tpose]
  exact sum_comm

theorem inner_mul_left (A B C : Mat ℝ D) : inner (mul A B) C = inner B (mul (tpose A) C) := by
  simp only [inner, mul, tpose, sum_mul, mul_sum]
  rw [sum_congr rfl fun i _ => sum_comm, sum_comm]
  refine sum_congr rfl fun k _ => ?_
  rw [sum_comm]
  exact sum_congr rfl fun j _ => sum_congr rfl fun i _ => by ring

theorem sqNorm_nonneg (A : Mat ℝ D) : 0 ≤ sqNorm A := by
  unfold sqNorm inner
  exact sum_nonneg fun i _ => sum_nonneg fun j _ => mul_self_nonneg _

theorem sqNorm_eq_zero {A : Mat ℝ D} : sqNorm A = 0 ↔ A = 0 := by
  constructor
  · intro h
    unfold sqNorm inner at h
    funext i j
    have h1 := (sum_eq_zero_iff_of_nonneg (fun i _ => sum_nonneg fun j _ => mul_self_nonneg (A i j))).mp h i (mem_univ i)
    have h2 := (sum_eq_zero_iff_of_nonneg (fun j _ => mul_self_nonneg (A i j))).mp h1 j (mem_univ j)
    exact mul_self_eq_zero.mp h2
  · rintro rfl
    simp [sqNorm, inner]

theorem sqNorm_smul (c : ℝ) (A : Mat ℝ D) : sqNorm (c • A) = c ^ 2 * sqNorm A := by
  rw [sqNorm, inner_smul_left, inner_smul_right, sqNorm]; ring

theorem deviator_add (A B : Mat ℝ D) : deviator (A + B) = deviator A + deviator B := by
  funext i j
  simp only [deviator, trace_add, Pi.sub_apply, Pi.add_apply, Pi.smul_apply, smul_eq_mul, add_div]
  ring
theorem deviator_sub (A B : Mat ℝ D) : deviator (A - B) = deviator A - deviator B := by
  funext i j
  simp only [deviator, trace_sub, Pi.sub_apply, Pi.smul_apply, smul_eq_mul, sub_div]
  ring
theorem deviator_smul (c : ℝ) (A : Mat ℝ D) : deviator (c • A) = c • deviator A := by
  funext i j
  simp only [deviator, trace_smul, Pi.sub_apply, Pi.smul_apply, smul_eq_mul, mul_div_assoc]
  ring
theorem deviator_idm (hD : 0 < D) : deviator (idm D) = 0 := by
  have : (D : ℝ) ≠ 0 := by exact_mod_cast hD.ne'
  funext i j
  simp [deviator, trace_idm, this]
theorem deviator_of_trace {A : Mat ℝ D} (h : trace A = 0) : deviator A = A := by
  funext i j
  simp [deviator, h]

theorem tmProd_second2 (F H : Mat ℝ 2) (i j : Fin 2) : tmProd (jacobianSecond2 F) H i j = jacobianFirst2 H i j := by
  fin_cases i <;> fin_cases j <;>
    simp [tmProd, jacobianSecond2, jacobianFirst2, assignAll, pos, Fin.sum_univ_two, zero]

/-- The derivative of the cofactor matrix. -/
def cofRate (M H : Mat ℝ 3) : Mat ℝ 3 :=
  ![![H 1 1 * M 2 2 + M 1 1 * H 2 2 - (H 2 1 * M 1 2 + M 2 1 * H 1 2),
      H 1 2 * M 2 0 + M 1 2 * H 2 0 - (H 2 2 * M 1 0 + M 2 2 * H 1 0),
      H 1 0 * M 2 1 + M 1 0 * H 2 1 - (H 1 1 * M 2 0 + M 1 1 * H 2 0)],
    ![H 0 2 * M 2 1 + M 0 2 * H 2 1 - (H 2 2 * M 0 1 + M 2 2 * H 0 1),
      H 0 0 * M 2 2 + M 0 0 * H 2 2 - (H 0 2 * M 2 0 + M 0 2 * H 2 0),
      H 2 0 * M 0 1 + M 2 0 * H 0 1 - (H 0 0 * M 2 1 + M 0 0 * H 2 1)],
    ![H 0 1 * M 1 2 + M 0 1 * H 1 2 - (H 1 1 * M 0 2 + M 1 1 * H 0 2),
      H 0 2 * M 1 0 + M 0 2 * H 1 0 - (H 0 0 * M 1 2 + M 0 0 * H 1 2),
      H 0 0 * M 1 1 + M 0 0 * H 1 1 - (H 0 1 * M 1 0 + M 0 1 * H 1 0)]]

theorem cofRate_deriv {A : ℝ → Mat ℝ 3} {H : Mat ℝ 3} {t : ℝ} (h : Spec.Velocity A H t) (i j : Fin 3) :
    HasDerivAt (fun s => jacobianFirst3 (A s) i j) (cofRate (A t) H i j) t := by
  fin_cases i <;> fin_cases j
  · exact ((h 1 1).fun_mul (h 2 2)).fun_sub ((h 2 1).fun_mul (h 1 2))
  · exact ((h 1 2).fun_mul (h 2 0)).fun_sub ((h 2 2).fun_mul (h 1 0))
  · exact ((h 1 0).fun_mul (h 2 1)).fun_sub ((h 1 1).fun_mul (h 2 0))
  · exact ((h 0 2).fun_mul (h 2 1)).fun_sub ((h 2 2).fun_mul (h 0 1))
  · exact ((h 0 0).fun_mul (h 2 2)).fun_sub ((h 0 2).fun_mul (h 2 0))
  · exact ((h 2 0).fun_mul (h 0 1)).fun_sub ((h 0 0).fun_mul (h 2 1))
  · exact ((h 0 1).fun_mul (h 1 2)).fun_sub ((h 1 1).fun_mul (h 0 2))
  · exact ((h 0 2).fun_mul (h 1 0)).fun_sub ((h 0 0).fun_mul (h 1 2))
  · exact ((h 0 0).fun_mul (h 1 1)).fun_sub ((h 0 1).fun_mul (h 1 0))

/-- What the code computes: one coefficient is wrong. -/
theorem tmProd_second3 (M H : Mat ℝ 3) (i j : Fin 3) : tmProd (jacobianSecond3 M) H i j =
    cofRate M H i j + if i = 2 ∧ j = 1 then (M 1 2 - M 2 1) * H 0 0 else 0 := by
  fin_cases i <;> fin_cases j <;>
    simp [tmProd, jacobianSecond3, jacobianSecondWrites, cofRate, assignAll, pos, Fin.sum_univ_three, zero] <;> ring

end Verif.Lemmas.Mech
