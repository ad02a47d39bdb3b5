import Verif.Model.Hyper
import Verif.Spec.Hyper
import Verif.Lemmas.Plastic
import Verif.Props.Mech
import Verif.Props.Tensor
import Mathlib.Analysis.SpecialFunctions.Log.Deriv
import Mathlib.Analysis.SpecialFunctions.Pow.Deriv
import Mathlib.Analysis.Calculus.Deriv.Inv
import Mathlib.LinearAlgebra.Matrix.Adjugate
/-!
Derivatives for the hyperelastic laws.
-/
namespace Verif.Lemmas.Hyper
open Verif.Tensor Verif.TensorConv Verif.Mech Verif.Hyper Verif.Spec Verif.Lemmas.Mech Verif.Lemmas.Plastic Finset

theorem inv_cof {F : Mat ℝ 3} (i j : Fin 3) : inv F i j = jacobianFirst3 F j i / det F := by
  have h : inv F i j = (Matrix.of F)⁻¹ i j := rfl
  rw [h, Matrix.inv_def, Matrix.adjugate_fin_three, Ring.inverse_eq_inv']
  rw [Matrix.smul_apply, smul_eq_mul, det, div_eq_inv_mul]
  congr 1
  fin_cases i <;> fin_cases j <;> simp [jacobianFirst3] <;> ring

theorem cof_eq {F : Mat ℝ 3} (h : det F ≠ 0) : jacobianFirst3 F = det F • tpose (inv F) := by
  funext i j
  show _ = det F * inv F j i
  rw [inv_cof, mul_div_cancel₀ _ h]

/-- Jacobi's formula. -/
theorem velocity_det {A : ℝ → Mat ℝ 3} {H : Mat ℝ 3} {t : ℝ} (h : Velocity A H t) (h0 : det (A t) ≠ 0) :
    HasDerivAt (fun s => det (A s)) (det (A t) * inner (tpose (inv (A t))) H) t := by
  refine (Props.Mech.c92_first.2 (A t) A H t rfl h).congr_deriv ?_
  rw [cof_eq h0]
  exact inner_smul_left _ _ _

theorem velocity_mul {A B : ℝ → Mat ℝ 3} {H G : Mat ℝ 3} {t : ℝ} (h : Velocity A H t) (g : Velocity B G t) :
    Velocity (fun s => mul (A s) (B s)) (mul H (B t) + mul (A t) G) t := by
  intro i j
  simp only [mul, Pi.add_apply]
  rw [← sum_add_distrib]
  exact HasDerivAt.fun_sum fun k _ => (h i k).fun_mul (g k j)

/-- The derivative of the inverse. -/
theorem velocity_inv {A : ℝ → Mat ℝ 3} {H : Mat ℝ 3} {t : ℝ} (h : Velocity A H t) (h0 : det (A t) ≠ 0) :
    Velocity (fun s => inv (A s)) ((-1 : ℝ) • mul (mul (inv (A t)) H) (inv (A t))) t := by
  have hdet := velocity_det h h0
  have hd : ∃ D : Mat ℝ 3, Velocity (fun s => inv (A s)) D t := by
    refine ⟨fun i j => (cofRate (A t) H j i * det (A t) - jacobianFirst3 (A t) j i *
      (det (A t) * inner (tpose (inv (A t))) H)) / det (A t) ^ 2, fun i j => ?_⟩
    simp only [inv_cof]
    exact (cofRate_deriv h j i).fun_div hdet h0
  obtain ⟨D, hD⟩ := hd
  have hI : Velocity (fun s => mul (A s) (inv (A s))) 0 t := by
    intro i j
    refine (hasDerivAt_const t (idm 3 i j)).congr_of_eventuallyEq ?_
    filter_upwards [hdet.continuousAt.eventually_ne h0] with s hs
    rw [mul_inv hs]
  have e : mul H (inv (A t)) + mul (A t) D = 0 := by
    funext i j
    exact (velocity_mul h hD i j).unique (hI i j)
  have e2 : D = (-1 : ℝ) • mul (mul (inv (A t)) H) (inv (A t)) := by
    have e3 : mul (A t) D = (-1 : ℝ) • mul H (inv (A t)) := by
      rw [neg_one_smul]
      exact eq_neg_of_add_eq_zero_right e
    calc D = mul (mul (inv (A t)) (A t)) D := by rw [inv_mul h0, idm_mul]
      _ = _ := by rw [Mech.mul_assoc, e3, Mech.mul_smul, Mech.mul_assoc]
  rw [← e2]
  exact hD

theorem velocity_invT {A : ℝ → Mat ℝ 3} {H : Mat ℝ 3} {t : ℝ} (h : Velocity A H t) (h0 : det (A t) ≠ 0) :
    Velocity (fun s => tpose (inv (A s))) ((-1 : ℝ) • tmProd (productInf (tpose (inv (A t))) (inv (A t))) H) t := by
  intro i j
  refine (velocity_inv h h0 j i).congr_deriv ?_
  simp only [Pi.smul_apply, smul_eq_mul]
  rw [(Props.TensorAlg.c45_product_inf _ _ _).2]
  congr 1
  simp only [mul, tpose, sum_mul]
  rw [sum_comm]
  exact sum_congr rfl fun k _ => sum_congr rfl fun l _ => by ring

/-! ### The volumetric part -/

/-- What `compute_T1` and `compute_T2` compute: `T1 = J U U'` and `T2 = J T1'`. -/
theorem vol_spec {type : Nat} (h1 : 1 ≤ type) (h6 : type ≤ 6) : ∃ f1 f2 : ℝ → ℝ,
    (∀ J, volT1 type J = .ok (f1 J)) ∧ (∀ J, volT2 type J = .ok (f2 J)) ∧
    (∀ J, 0 < J → HasDerivAt (fun J => docU type J ^ 2 / 2) (f1 J / J) J) ∧
    (∀ J, 0 < J → HasDerivAt f1 (f2 J / J) J) ∧ f1 1 = 0 := by
  obtain rfl | rfl | rfl | rfl | rfl | rfl : type = 1 ∨ type = 2 ∨ type = 3 ∨ type = 4 ∨ type = 5 ∨ type = 6 := by omega
  · refine ⟨_, _, fun J => rfl, fun J => rfl, fun J hJ => ?_, fun J hJ => ?_, Real.log_one⟩
    · have := ((Real.hasDerivAt_log hJ.ne').fun_pow 2).div_const 2
      refine this.congr_deriv ?_
      have := hJ.ne'
      simp only [Nat.cast_ofNat, Nat.reduceSub, pow_one]
      field_simp
      try ring
    · refine (Real.hasDerivAt_log hJ.ne').congr_deriv ?_
      rw [one_div]
  · refine ⟨_, _, fun J => rfl, fun J => rfl, fun J hJ => ?_, fun J hJ => ?_, by norm_num⟩
    · have := (((hasDerivAt_id' J).sub_const 1).fun_pow 2).div_const 2
      refine this.congr_deriv ?_
      have := hJ.ne'
      simp only [Nat.cast_ofNat, Nat.reduceSub, pow_one]
      field_simp
      try ring
    · refine ((hasDerivAt_id' J).fun_mul ((hasDerivAt_id' J).sub_const 1)).congr_deriv ?_
      have := hJ.ne'
      field_simp
      ring
  · refine ⟨_, _, fun J => rfl, fun J => rfl, fun J hJ => ?_, fun J hJ => ?_, by simp⟩
    · have := (((Real.hasDerivAt_log hJ.ne').div_const (Real.log 10)).fun_pow 2).div_const 2
      refine this.congr_deriv ?_
      have := hJ.ne'
      have : Real.log 10 ≠ 0 := (Real.log_pos (by norm_num)).ne'
      simp only [Nat.cast_ofNat, Nat.reduceSub, pow_one]
      field_simp
      try ring
    · refine ((Real.hasDerivAt_log hJ.ne').div_const (Real.log 10 * Real.log 10)).congr_deriv ?_
      have := hJ.ne'
      have : Real.log 10 ≠ 0 := (Real.log_pos (by norm_num)).ne'
      field_simp
  · refine ⟨_, _, fun J => rfl, fun J => rfl, fun J hJ => ?_, fun J hJ => ?_, by norm_num⟩
    · have := ((((hasDerivAt_const J (1 : ℝ)).fun_div (hasDerivAt_id' J) hJ.ne').const_sub 1).fun_pow 2).div_const 2
      refine this.congr_deriv ?_
      have := hJ.ne'
      simp only [Nat.cast_ofNat, Nat.reduceSub, pow_one]
      field_simp
      try ring
    · refine (((hasDerivAt_id' J).sub_const 1).fun_div ((hasDerivAt_id' J).fun_mul (hasDerivAt_id' J))
        (mul_pos hJ hJ).ne').congr_deriv ?_
      have := hJ.ne'
      field_simp
      ring
  · refine ⟨_, _, fun J => rfl, fun J => rfl, fun J hJ => ?_, fun J hJ => ?_, by norm_num⟩
    · have := ((((hasDerivAt_id' J).fun_pow 2).sub_const 1).fun_pow 2).div_const 2
      refine this.congr_deriv ?_
      have := hJ.ne'
      simp only [Nat.cast_ofNat, Nat.reduceSub, pow_one]
      field_simp
      try ring
    · refine ((((hasDerivAt_id' J).const_mul 2).fun_mul (hasDerivAt_id' J)).fun_mul
        (((hasDerivAt_id' J).fun_mul (hasDerivAt_id' J)).sub_const 1)).congr_deriv ?_
      have := hJ.ne'
      field_simp
      ring
  · refine ⟨_, _, fun J => rfl, fun J => rfl, fun J hJ => ?_, fun J hJ => ?_, by norm_num⟩
    · have := (((((hasDerivAt_id' J).fun_pow 2).sub_const 1).fun_sub ((Real.hasDerivAt_log hJ.ne').const_mul 2)).div_const
        2).div_const 2
      refine (this.congr_of_eventuallyEq ?_).congr_deriv ?_
      · filter_upwards [lt_mem_nhds hJ] with x hx
        show Real.sqrt _ ^ 2 / 2 = _
        rw [Real.sq_sqrt]
        have := Real.log_le_sub_one_of_pos (show 0 < x ^ 2 by positivity)
        rw [Real.log_pow] at this
        push_cast at this
        linarith
      · have := hJ.ne'
        field_simp
        ring
    · refine ((((hasDerivAt_id' J).fun_mul (hasDerivAt_id' J)).sub_const 1).div_const 2).congr_deriv ?_
      have := hJ.ne'
      field_simp
      ring

variable {A : ℝ → Mat ℝ 3} {H : Mat ℝ 3} {t : ℝ} {f1 f2 : ℝ → ℝ}

theorem vol_energy {U : ℝ → ℝ} (lambda mu : ℝ) (h : Velocity A H t) (h0 : 0 < det (A t))
    (hU : HasDerivAt (fun J => U J ^ 2 / 2) (f1 (det (A t)) / det (A t)) (det (A t))) :
    HasDerivAt (fun s => volEnergy lambda mu U (A s))
      (inner ((lambda * f1 (det (A t)) - mu) • tpose (inv (A t))) H) t := by
  have hd := velocity_det h h0.ne'
  have h1 := ((hU.comp t hd).const_mul lambda).fun_sub ((hd.log h0.ne').const_mul mu)
  rw [inner_smul_left]
  refine (h1.congr_deriv ?_).congr_of_eventuallyEq (Filter.Eventually.of_forall fun s => ?_)
  · have := h0.ne'
    field_simp
  · show lambda / 2 * U (det (A s)) ^ 2 - mu * Real.log (det (A s)) = _
    simp only [Function.comp]
    ring

theorem vol_tangent (lambda mu : ℝ) (h : Velocity A H t) (h0 : 0 < det (A t))
    (hf : HasDerivAt f1 (f2 (det (A t)) / det (A t)) (det (A t))) :
    Velocity (fun s => (lambda * f1 (det (A s)) - mu) • tpose (inv (A s)))
      ((lambda * f2 (det (A t)) * inner (tpose (inv (A t))) H) • tpose (inv (A t)) +
        (mu - lambda * f1 (det (A t))) • tmProd (productInf (tpose (inv (A t))) (inv (A t))) H) t := by
  intro i j
  have hd := velocity_det h h0.ne'
  have h1 := (((hf.comp t hd).const_mul lambda).sub_const mu).fun_mul (velocity_invT h h0.ne' i j)
  refine h1.congr_deriv ?_
  have := h0.ne'
  simp only [Pi.add_apply, Pi.smul_apply, smul_eq_mul, Function.comp]
  field_simp
  ring

theorem checked_ok {α : Type} {F : Mat ℝ 3} (h : 0 < det F) (k : ℝ → Outcome α) : checked F k = k (det F) :=
  if_neg (not_le.mpr h)

theorem trace_cg (F : Mat ℝ 3) : trace (mul (tpose F) F) = sqNorm F := by
  simp only [trace, mul, tpose, sqNorm, inner]
  exact sum_comm

theorem sqNorm_pos {F : Mat ℝ 3} (h : det F ≠ 0) : 0 < sqNorm F := by
  refine lt_of_le_of_ne (sqNorm_nonneg F) fun h0 => h ?_
  rw [sqNorm_eq_zero.mp h0.symm, det]
  simp [Matrix.det_fin_three]

theorem neo_eq {d : Data} (hv1 : ∀ J, volT1 d.type J = .ok (f1 J)) (hv2 : ∀ J, volT2 d.type J = .ok (f2 J)) {F : Mat ℝ 3}
    (h : 0 < det F) : neo3D F d = .ok (d.mu • F + (d.lambda * f1 (det F) - d.mu) • tpose (inv F),
      d.mu • (identity ℝ 3 + productInf (tpose (inv F)) (inv F)) +
      d.lambda • (f2 (det F) • kronecker (tpose (inv F)) (tpose (inv F)) - f1 (det F) • productInf (tpose (inv F)) (inv F)))
    := by
  simp only [neo3D, neoStress, neoTangent, checked_ok h, hv1, hv2, Outcome.bind_ok]

theorem cav_eq {d : Data} (hv1 : ∀ J, volT1 d.type J = .ok (f1 J)) (hv2 : ∀ J, volT2 d.type J = .ok (f2 J)) {F : Mat ℝ 3}
    (h : 0 < det F) : cav3D F d = .ok ((d.mu * (3 * sqNorm F) ^ (-1 / 4 : ℝ)) • F +
        (d.lambda * f1 (det F) - d.mu) • tpose (inv F),
      (d.mu * (3 : ℝ) ^ (-1 / 4 : ℝ)) •
      (sqNorm F ^ (-1 / 4 : ℝ) • identity ℝ 3 - (1 / 2 * sqNorm F ^ (-5 / 4 : ℝ)) • kronecker F F) +
      ((d.lambda * f2 (det F)) • kronecker (tpose (inv F)) (tpose (inv F)) +
        (d.mu - d.lambda * f1 (det F)) • productInf (tpose (inv F)) (inv F))) := by
  simp only [cav3D, cavStress, cavTangent, checked_ok h, hv1, hv2, Outcome.bind_ok, cauchyGreenRight, trace_cg]

theorem neo_tangent {d : Data} (h : Velocity A H t) (h0 : 0 < det (A t))
    (hf : HasDerivAt f1 (f2 (det (A t)) / det (A t)) (det (A t))) :
    Velocity (fun s => d.mu • A s + (d.lambda * f1 (det (A s)) - d.mu) • tpose (inv (A s)))
      (tmProd (d.mu • (identity ℝ 3 + productInf (tpose (inv (A t))) (inv (A t))) +
        d.lambda • (f2 (det (A t)) • kronecker (tpose (inv (A t))) (tpose (inv (A t))) -
          f1 (det (A t)) • productInf (tpose (inv (A t))) (inv (A t)))) H) t := by
  simp only [tmProd_add, tmProd_smul, tmProd_sub, tmProd_kronecker, Props.TensorAlg.c45_identity (Or.inr (Or.inr rfl))]
  intro i j
  refine (((h i j).const_mul d.mu).fun_add (vol_tangent d.lambda d.mu h h0 hf i j)).congr_deriv ?_
  simp only [Pi.add_apply, Pi.sub_apply, Pi.smul_apply, smul_eq_mul]
  ring

theorem cav_tangent {d : Data} (h : Velocity A H t) (h0 : 0 < det (A t))
    (hf : HasDerivAt f1 (f2 (det (A t)) / det (A t)) (det (A t))) :
    Velocity (fun s => (d.mu * (3 * sqNorm (A s)) ^ (-1 / 4 : ℝ)) • A s +
        (d.lambda * f1 (det (A s)) - d.mu) • tpose (inv (A s)))
      (tmProd ((d.mu * (3 : ℝ) ^ (-1 / 4 : ℝ)) •
        (sqNorm (A t) ^ (-1 / 4 : ℝ) • identity ℝ 3 - (1 / 2 * sqNorm (A t) ^ (-5 / 4 : ℝ)) • kronecker (A t) (A t)) +
        ((d.lambda * f2 (det (A t))) • kronecker (tpose (inv (A t))) (tpose (inv (A t))) +
          (d.mu - d.lambda * f1 (det (A t))) • productInf (tpose (inv (A t))) (inv (A t)))) H) t := by
  have hp := sqNorm_pos h0.ne'
  simp only [tmProd_add, tmProd_smul, tmProd_sub, tmProd_kronecker, Props.TensorAlg.c45_identity (Or.inr (Or.inr rfl))]
  have h1 := (velocity_sqNorm h).rpow_const (p := (-1 / 4 : ℝ)) (Or.inl hp.ne')
  intro i j
  have h2 := ((h1.const_mul (d.mu * (3 : ℝ) ^ (-1 / 4 : ℝ))).fun_mul (h i j)).fun_add
    (vol_tangent d.lambda d.mu h h0 hf i j)
  refine (h2.congr_deriv ?_).congr_of_eventuallyEq (Filter.Eventually.of_forall fun s => ?_)
  · rw [show (-1 / 4 : ℝ) - 1 = -5 / 4 by norm_num]
    simp only [Pi.add_apply, Pi.sub_apply, Pi.smul_apply, smul_eq_mul]
    ring
  · simp only [Pi.add_apply, Pi.smul_apply, smul_eq_mul]
    rw [Real.mul_rpow (by norm_num) (sqNorm_nonneg _)]
    ring

theorem neo_energy {d : Data} (h : Velocity A H t) (h0 : 0 < det (A t)) {U : ℝ → ℝ}
    (hU : HasDerivAt (fun J => U J ^ 2 / 2) (f1 (det (A t)) / det (A t)) (det (A t))) :
    HasDerivAt (fun s => neoHookean d.lambda d.mu U (A s))
      (ddot (d.mu • A t + (d.lambda * f1 (det (A t)) - d.mu) • tpose (inv (A t))) H) t := by
  have h1 := (((velocity_sqNorm h).sub_const 3).const_mul (d.mu / 2)).fun_add (vol_energy d.lambda d.mu h h0 hU)
  refine h1.congr_deriv ?_
  show _ = inner _ H
  rw [inner_add_left, inner_smul_left d.mu]
  ring

theorem cav_energy {d : Data} (h : Velocity A H t) (h0 : 0 < det (A t)) {U : ℝ → ℝ}
    (hU : HasDerivAt (fun J => U J ^ 2 / 2) (f1 (det (A t)) / det (A t)) (det (A t))) :
    HasDerivAt (fun s => cavitation d.lambda d.mu U (A s))
      (ddot ((d.mu * (3 * sqNorm (A t)) ^ (-1 / 4 : ℝ)) • A t + (d.lambda * f1 (det (A t)) - d.mu) • tpose (inv (A t))) H)
      t := by
  have hp := sqNorm_pos h0.ne'
  have h1 := (((velocity_sqNorm h).rpow_const (p := (3 / 4 : ℝ)) (Or.inl hp.ne')).const_mul
    (2 * d.mu / (3 : ℝ) ^ (5 / 4 : ℝ))).fun_add (vol_energy d.lambda d.mu h h0 hU)
  refine h1.congr_deriv ?_
  show _ = inner _ H
  rw [inner_add_left, inner_smul_left (d.mu * _)]
  congr 1
  rw [Real.mul_rpow (by norm_num) (sqNorm_nonneg _), show (3 / 4 : ℝ) - 1 = -1 / 4 by norm_num]
  have e : (3 : ℝ) ^ (-1 / 4 : ℝ) = 3 / (3 : ℝ) ^ (5 / 4 : ℝ) := by
    rw [show (-1 / 4 : ℝ) = 1 - 5 / 4 by norm_num, Real.rpow_sub (by norm_num), Real.rpow_one]
  rw [e]
  ring

end Verif.Lemmas.Hyper
