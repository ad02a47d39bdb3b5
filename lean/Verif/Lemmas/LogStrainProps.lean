import Verif.Lemmas.LogStrain6
/-! Lemmas for LogStrain.lean. -/
namespace Verif.Props.LogStrain
open Verif.Tensor Verif.TensorConv Verif.Mech Verif.LogStrain Verif.Plastic Verif.Spec Verif.Lemmas.Mech
  Verif.Lemmas.Plastic Verif.Lemmas.LogStrain Verif.Lemmas.MatFun Finset Filter Topology

variable {eps tiny : ℝ} {solver : Mat ℝ 3 → Vec3 × Mat ℝ 3}

/-- The largest two of the eigenvalues differ, or all three coincide; and eigenvalues that compare almost equal are
equal. -/
def Regular (eps tiny : ℝ) (lam : Vec3) : Prop :=
  Separated eps tiny lam ∧ (lam 1 = lam 2 → lam 0 = lam 1)

theorem coef_of_regular (he : 0 ≤ eps) (hs : IsSolver solver) {F : Mat ℝ 3} (h0 : det F ≠ 0)
    (hr : Regular eps tiny (evs solver F)) : CoefSpec (evs solver F) (coefficient eps tiny (evs solver F)) :=
  coef_spec he (evs_pos hs h0) (hs.sorted _ (symm_cg _)).1 (hs.sorted _ (symm_cg _)).2 hr.1 hr.2

/-- The tangent the law returns. -/
noncomputable def codeTangent (eps tiny : ℝ) (lam : Vec3) (V F T : Mat ℝ 3) (Ct : Tens ℝ 3) (tangent : Bool) : Tens ℝ 3 :=
  if tangent = false then Ct else
    ctoa (contracted (Tensor.transpose zero (projectorPK2 eps tiny lam V)) (contracted Ct (projectorPK2 eps tiny lam V)) +
      tlPK2 eps tiny T lam V) (mtProd T (projectorPK2 eps tiny lam V)) F

theorem whole_eq {hpp : Mat ℝ 3 → Outcome (Mat ℝ 3 × Tens ℝ 3)} {T : Mat ℝ 3 → Mat ℝ 3} {Ct : Mat ℝ 3 → Tens ℝ 3}
    (hl : ∀ E, hpp E = .ok (T E, Ct E)) {F : Mat ℝ 3} (hF : 1 / 100 < det F) (tangent : Bool) :
    whole3D eps tiny solver hpp tangent F =
      .ok (mtProd (T (strain solver F)) (projector eps tiny F (evs solver F) (evv solver F)),
        codeTangent eps tiny (evs solver F) (evv solver F) F (T (strain solver F)) (Ct (strain solver F)) tangent) := by
  rw [whole3D, if_neg (not_le.mpr hF)]
  dsimp only
  rw [hl, Outcome.bind_ok]
  cases tangent <;> rfl

/-- The linear elastic law as the small strain law. -/
noncomputable def elastic (q : Qp) (d : Data) (E : Mat ℝ 3) : Outcome (Mat ℝ 3 × Tens ℝ 3) :=
  .ok (linearElasticity3D q E d).1

theorem elastic_eq (q : Qp) (d : Data) (E : Mat ℝ 3) : elastic q d E = .ok (elasticStress d E, elasticModulus3D d) := rfl

theorem elastic_symm (d : Data) (E : Mat ℝ 3) (h : Symm E) : Symm (elasticStress d E) := by
  intro i j
  simp only [elasticStress, Pi.add_apply, Pi.smul_apply, h i j, idm, eq_comm (a := i)]

theorem elastic_tangent (d : Data) (E : Mat ℝ 3) :
    IsTangentOn Symm (elasticStress d) (tmProd (elasticModulus3D d)) E := by
  rintro A H t rfl hH h
  rw [tmProd_elastic d hH]
  exact velocity_elasticStress d h

theorem elastic_major (d : Data) : Major (elasticModulus3D d) := by
  intro i j k l
  simp only [elasticModulus3D, get_tadd, get_tsmul, get_identitySym (two_ne_zero (α := ℝ)) (Or.inr (Or.inr rfl)), get_ixi]
  simp only [eq_comm, and_comm]

theorem elastic_isotropic (d : Data) : IsIsotropic (elasticStress d) := by
  intro Q hQ E _
  have h1 : (Matrix.of Q).transpose * Matrix.of Q = 1 := by
    ext i j
    rw [Matrix.mul_apply, Matrix.one_apply]
    exact hQ i j
  have h2 := mul_eq_one_comm.mp h1
  have ht : trace (rotated Q E) = trace E := by
    have : Matrix.trace (Matrix.of (rotated Q E)) = Matrix.trace (Matrix.of E) := by
      rw [of_rotated, Matrix.trace_mul_comm, ← Matrix.mul_assoc, h1, Matrix.one_mul]
    exact this
  have hs : ∀ X : Mat ℝ 3, Matrix.of (elasticStress d X) = (2 * d.mu) • Matrix.of X + (d.lambda * trace X) • 1 := by
    intro X
    ext i j
    simp [elasticStress, idm, Matrix.one_apply]
  apply Matrix.of.injective
  rw [of_rotated, hs, hs, ht, of_rotated, Matrix.mul_add, Matrix.add_mul, Matrix.mul_smul, Matrix.smul_mul,
    Matrix.mul_smul, Matrix.smul_mul, Matrix.mul_one, h2]

/-- The principal stress of the elastic law in the directions of the equal stretches. -/
noncomputable def b144 (d : Data) : ℝ := (2 * d.mu + 2 * d.lambda) * (Real.log 4 / 2)

theorem stress144 (d : Data) : elasticStress d (elog lam144 (idm 3)) =
    fun i j => if i = j then ![d.lambda * Real.log 4, b144 d, b144 d] i else 0 := by
  funext i j
  fin_cases i <;> fin_cases j <;>
    simp [elasticStress, elog, mul, tpose, idm, lam144, ei, trace, Fin.sum_univ_three, b144] <;> ring

theorem b144_gt {d : Data} (hmu : 0 < d.mu) (hla : 0 ≤ d.lambda) : d.mu < b144 d := by
  have h4 : Real.log 4 = 2 * Real.log 2 := by
    rw [show (4 : ℝ) = 2 ^ 2 by norm_num, Real.log_pow]
    norm_num
  have h2 := Real.log_two_gt_d9
  rw [b144, h4]
  nlinarith

theorem mtProd_shear (he : 0 ≤ eps) (he1 : eps ≤ 1 / 10) (ht : tiny ≤ 1) (c : ℝ) :
    mtProd (c • shear12) (projectorPK2 eps tiny lam144 (idm 3)) = c • shear12 := by
  obtain ⟨h1, h2⟩ := full144 he he1 ht
  refine ddot_left fun Y => ?_
  rw [ddot_mtProd, projectorPK2_eq, tmProd_projector, cdot_idm, conj_idm, pull_idm]
  simp only [ddot, Fin.sum_univ_three, Pi.smul_apply, smul_eq_mul, Pi.add_apply, tpose, shear12]
  simp [h1, h2]
  ring

end Verif.Props.LogStrain
