import Verif.Lemmas.LogStrainProps
import Verif.Lemmas.LogStrain6
/-!
Properties of the logarithmic strain framework.
-/
namespace Verif.Props.LogStrain
open Verif.Tensor Verif.TensorConv Verif.Mech Verif.LogStrain Verif.Plastic Verif.Spec Verif.Lemmas.Mech
  Verif.Lemmas.Plastic Verif.Lemmas.LogStrain Verif.Lemmas.MatFun Finset Filter Topology

variable {eps tiny : ℝ} {solver : Mat ℝ 3 → Vec3 × Mat ℝ 3}

/-! ### C100 -/

/-- C100: for positive increasing eigenvalues, the coefficients are the divided differences of `log(x)/2`, when the largest
two differ or all three coincide. -/
theorem c100_coefficients_partial (he : 0 ≤ eps) {lam : Vec3} (hp : ∀ i, 0 < lam i) (h01 : lam 0 ≤ lam 1)
    (h12 : lam 1 ≤ lam 2) (hr : Regular eps tiny lam) :
    (∀ i j, i ≠ j → (coefficient eps tiny lam).theta i j = scaleDiff (lam i) (lam j)) ∧
    (∀ i j, i ≠ j → (coefficient eps tiny lam).xi i j = scaleDiff2 (lam i) (lam j) (lam j)) ∧
    (coefficient eps tiny lam).eta = scaleDiff2 (lam 0) (lam 1) (lam 2) :=
  let h := coef_spec he hp h01 h12 hr.1 hr.2
  ⟨h.theta, h.xi, h.eta⟩

/-- Non-vacuity: three different eigenvalues, and three equal ones. -/
example : Regular (1 / 100) (1 / 100) ![1, 2, 4] ∧ Regular 0 0 ![3, 3, 3] := by
  refine ⟨⟨fun i j => ?_, by simp⟩, ⟨fun i j => ?_, by simp⟩⟩
  · fin_cases i <;> fin_cases j <;> simp [almostEqual] <;> norm_num [abs_of_pos, abs_of_neg]
  · fin_cases i <;> fin_cases j <;> simp

/-- C100: violated for the eigenvalues `1, 4, 4`, for every tolerance up to `1/10`: the derivative at the double
eigenvalue `4` is taken at `1`. -/
theorem c100_violated (he : 0 ≤ eps) (he1 : eps ≤ 1 / 10) (ht : tiny ≤ 1) :
    (coefficient eps tiny ![1, 4, 4]).theta 1 2 = 1 / 2 ∧ scaleDiff 4 4 = 1 / 8 ∧
    (coefficient eps tiny ![1, 4, 4]).xi 1 2 = -1 / 4 ∧ scaleDiff2 4 4 4 = -1 / 64 := by
  have hc := coef144 he he1 ht
  rw [lam144] at hc
  rw [hc]
  refine ⟨by simp [twoEqual, di], by rw [scale_same (by norm_num)]; norm_num, ?_, by
    rw [scale2_same (by norm_num)]; norm_num⟩
  simp [twoEqual, fi]
  norm_num

/-! ### C101 -/

/-- C101: the strain passed to the small strain law is the symmetric matrix with `exp(2 E) = F^T F`, for every solver and
every deformation gradient with nonzero determinant. -/
theorem c101_strain (hs : IsSolver solver) {F : Mat ℝ 3} (h0 : det F ≠ 0) (E : Mat ℝ 3) :
    (Symm E ∧ NormedSpace.exp ((2 : ℝ) • Matrix.of E) = Matrix.of (cauchyGreenRight F)) ↔ E = strain solver F := by
  constructor
  · rintro ⟨hE, hexp⟩
    obtain ⟨r, hr, -⟩ := exists_eigen hE
    have h1 := eig_of hr
    have hu : IsUnit (Matrix.of r.2) := IsUnit.of_mul_eq_one _ h1.orth'
    have hi : (Matrix.of r.2)⁻¹ = (Matrix.of r.2).transpose := Matrix.inv_eq_left_inv h1.orth
    have e : (2 : ℝ) • Matrix.of E = Matrix.of r.2 * Matrix.diagonal (fun i => 2 * r.1 i) * (Matrix.of r.2)⁻¹ := by
      conv_lhs => rw [h1.eq]
      rw [hi, ← Matrix.smul_mul, ← Matrix.mul_smul, ← Matrix.diagonal_smul]
      rfl
    have e2 : NormedSpace.exp (fun i => 2 * r.1 i) = fun i => Real.exp (2 * r.1 i) := by
      funext i
      rw [Pi.coe_exp, ← Real.exp_eq_exp_ℝ]
    rw [e, Matrix.exp_conj _ _ hu, Matrix.exp_diagonal, hi, e2] at hexp
    have h2 : Eig (Matrix.of (cauchyGreenRight F)) (fun i => Real.exp (2 * r.1 i)) (Matrix.of r.2) := by
      refine ⟨h1.orth, ?_⟩
      rw [← hexp, Matrix.mul_assoc, h1.orth, Matrix.mul_one]
    have h3 := fcn_unique henckyScale h2 (eig_of (hs.eig _ (symm_cg F)))
    apply Matrix.of.injective
    rw [strain, of_elog]
    refine Eq.trans ?_ h3
    conv_lhs => rw [h1.eq]
    rw [fcn]
    congr 3
    funext i
    rw [henckyScale, Real.log_exp]
    ring
  · rintro rfl
    exact ⟨strain_symm F, exp_strain hs h0⟩

/-- C101: a deformation gradient whose determinant is at most `1/100` is refused, also when it is positive; for others the
law throws or fails only if the small strain law does. -/
theorem c101_refused (hpp : Mat ℝ 3 → Outcome (Mat ℝ 3 × Tens ℝ 3)) (tangent : Bool) (F : Mat ℝ 3) :
    (det F ≤ 1 / 100 → ∃ m, whole3D eps tiny solver hpp tangent F = .throws m) ∧
    (1 / 100 < det F → ∀ r, hpp (strain solver F) = .ok r → ∃ r', whole3D eps tiny solver hpp tangent F = .ok r') := by
  refine ⟨fun h => ?_, fun h r hr => ?_⟩
  · rw [whole3D, if_pos h]
    exact ⟨_, rfl⟩
  · rw [whole3D, if_neg (not_le.mpr h)]
    have hr' : hpp (elog (solver (cauchyGreenRight F)).1 (solver (cauchyGreenRight F)).2) = .ok r := hr
    dsimp only
    rw [hr', Outcome.bind_ok]
    split <;> exact ⟨_, rfl⟩

/-- C101: an admissible deformation gradient that is refused. -/
example : ∃ F : Mat ℝ 3, 0 < det F ∧ det F ≤ 1 / 100 := by
  refine ⟨![![1 / 100, 0, 0], ![0, 1, 0], ![0, 0, 1]], ?_, ?_⟩ <;>
    · rw [det, Matrix.det_fin_three]
      simp

/-- C101: the stress conjugate to the deformation gradient exists. -/
theorem c101_conjugate (hs : IsSolver solver) {T : Mat ℝ 3 → Mat ℝ 3} (hT : ∀ E, Symm E → Symm (T E)) :
    ∃ S, IsConjugate (fun F => 0 < det F) (strain solver) T S :=
  ⟨_, fun F hF => conjugate_exists hs hT strain_symm F hF.ne'⟩

/-- C101: the returned stress is the conjugate of the stress of the small strain law, when the largest two squared
stretches differ or all three coincide. -/
theorem c101_stress_partial (he : 0 ≤ eps) (hs : IsSolver solver) {hpp : Mat ℝ 3 → Outcome (Mat ℝ 3 × Tens ℝ 3)}
    {T : Mat ℝ 3 → Mat ℝ 3} {Ct : Mat ℝ 3 → Tens ℝ 3} (hl : ∀ E, hpp E = .ok (T E, Ct E))
    (hT : ∀ E, Symm E → Symm (T E)) {S : Mat ℝ 3 → Mat ℝ 3}
    (hS : IsConjugate (fun F => 0 < det F) (strain solver) T S) {F : Mat ℝ 3} (hF : 1 / 100 < det F)
    (hr : Regular eps tiny (evs solver F)) (tangent : Bool) :
    ∃ A, whole3D eps tiny solver hpp tangent F = .ok (S F, A) := by
  have h0 : 0 < det F := lt_trans (by norm_num) hF
  refine ⟨codeTangent eps tiny (evs solver F) (evv solver F) F (T (strain solver F)) (Ct (strain solver F)) tangent,
    (whole_eq hl hF tangent).trans ?_⟩
  rw [mtProd_projector (evs_pos hs h0.ne') (coef_of_regular he hs h0.ne' hr) (hT _ (strain_symm F)),
    conjugate_unique hs hS h0 h0.ne' (hT _ (strain_symm F))]

/-- C101: for isotropic small strain laws the returned stress is the conjugate one at every deformation. -/
theorem c101_stress_isotropic (hs : IsSolver solver) {hpp : Mat ℝ 3 → Outcome (Mat ℝ 3 × Tens ℝ 3)}
    {T : Mat ℝ 3 → Mat ℝ 3} {Ct : Mat ℝ 3 → Tens ℝ 3} (hl : ∀ E, hpp E = .ok (T E, Ct E))
    (hT : ∀ E, Symm E → Symm (T E)) (hi : IsIsotropic T) {S : Mat ℝ 3 → Mat ℝ 3}
    (hS : IsConjugate (fun F => 0 < det F) (strain solver) T S) {F : Mat ℝ 3} (hF : 1 / 100 < det F) (tangent : Bool) :
    ∃ A, whole3D eps tiny solver hpp tangent F = .ok (S F, A) := by
  have h0 : 0 < det F := lt_trans (by norm_num) hF
  refine ⟨codeTangent eps tiny (evs solver F) (evv solver F) F (T (strain solver F)) (Ct (strain solver F)) tangent,
    (whole_eq hl hF tangent).trans ?_⟩
  rw [mtProd_projector_diag (V := evv solver F) (evs_pos hs h0.ne') (hT _ (strain_symm F))
      (fun i j hij => pull_diag (hs.eig _ (symm_cg F)) hi hij),
    conjugate_unique hs hS h0 h0.ne' (hT _ (strain_symm F))]

/-- C101: if the small strain law derives from an energy, the returned stress derives from the energy of the logarithmic
strain (isotropic laws, or regular eigenvalues). -/
theorem c101_energy (he : 0 ≤ eps) (hs : IsSolver solver) {hpp : Mat ℝ 3 → Outcome (Mat ℝ 3 × Tens ℝ 3)}
    {T : Mat ℝ 3 → Mat ℝ 3} {Ct : Mat ℝ 3 → Tens ℝ 3} (hl : ∀ E, hpp E = .ok (T E, Ct E))
    (hT : ∀ E, Symm E → Symm (T E)) {W : Mat ℝ 3 → ℝ} (hW : ∀ E, Symm E → IsStressOf W (T E) E) {F : Mat ℝ 3}
    (hF : 1 / 100 < det F) (hr : IsIsotropic T ∨ Regular eps tiny (evs solver F)) (tangent : Bool) :
    ∃ P A, whole3D eps tiny solver hpp tangent F = .ok (P, A) ∧ IsStressOf (fun F => W (strain solver F)) P F := by
  have h0 : 0 < det F := lt_trans (by norm_num) hF
  obtain ⟨S, hS⟩ := c101_conjugate hs hT
  obtain ⟨A, hA⟩ : ∃ A, whole3D eps tiny solver hpp tangent F = .ok (S F, A) := by
    rcases hr with hi | hr
    · exact c101_stress_isotropic hs hl hT hi hS hF tangent
    · exact c101_stress_partial he hs hl hT hS hF hr tangent
  refine ⟨_, A, hA, ?_⟩
  rintro B H t rfl hB
  have hv := elog_velocity hs hB h0.ne'
  have := hW _ (strain_symm (B t)) (fun s => strain solver (B s)) _ t rfl hv
  exact this.congr_deriv (hS _ h0 B H _ t rfl hB hv).symm

/-- C101: the stress does not depend on the observer. -/
theorem c101_objective {hpp : Mat ℝ 3 → Outcome (Mat ℝ 3 × Tens ℝ 3)} {T : Mat ℝ 3 → Mat ℝ 3} {Ct : Mat ℝ 3 → Tens ℝ 3}
    (hl : ∀ E, hpp E = .ok (T E, Ct E)) {F Q : Mat ℝ 3} (hQ : Hyper.Rotation Q) (hF : 1 / 100 < det F) (tangent : Bool) :
    ∃ P A A', whole3D eps tiny solver hpp tangent F = .ok (P, A) ∧
      whole3D eps tiny solver hpp tangent (mul Q F) = .ok (mul Q P, A') := by
  have hd := (Hyper.rotation_facts hQ F).1
  have e1 : evs solver (mul Q F) = evs solver F := by rw [evs, cg_rot hQ.orth]; rfl
  have e2 : evv solver (mul Q F) = evv solver F := by rw [evv, cg_rot hQ.orth]; rfl
  have e3 : strain solver (mul Q F) = strain solver F := by rw [strain, e1, e2]; rfl
  have h := whole_eq (eps := eps) (tiny := tiny) (solver := solver) hl (F := mul Q F) (by rw [hd]; exact hF) tangent
  rw [e1, e2, e3, mtProd_rot] at h
  exact ⟨_, _, _, whole_eq hl hF tangent, h⟩

/-- C101: violated for stresses that are not coaxial with the strain: with a constant shear stress, the stress returned
at the stretches `1, 2, 2` is four times the conjugate one. -/
theorem c101_stress_violated (he : 0 ≤ eps) (he1 : eps ≤ 1 / 10) (ht : tiny ≤ 1) :
    ∃ solver, IsSolver solver ∧ ∃ (T : Mat ℝ 3 → Mat ℝ 3) (Ct : Mat ℝ 3 → Tens ℝ 3), (∀ E, Symm (T E)) ∧
      ∀ S, IsConjugate (fun F => 0 < det F) (strain solver) T S → ∃ F P A, 1 < det F ∧
        whole3D eps tiny solver (fun E => .ok (T E, Ct E)) false F = .ok (P, A) ∧
        ∃ H, ddot P H = 4 ∧ ddot (S F) H = 1 := by
  obtain ⟨s, hs, e1, e2⟩ := exists_solver144
  refine ⟨s, hs, fun _ => shear12, fun _ => 0, fun _ i j => by fin_cases i <;> fin_cases j <;> rfl, fun S hS => ?_⟩
  have hsym : Symm shear12 := fun i j => by fin_cases i <;> fin_cases j <;> rfl
  refine ⟨F144, _, _, by rw [det144]; norm_num, whole_eq (fun _ => rfl) (by rw [det144]; norm_num) false, shear12, ?_, ?_⟩
  · rw [ddot_mtProd, tmProd_projector, e1, e2, cdot144, code_shear he he1 ht, ddot_shear]
    norm_num
  · rw [conjugate_unique hs hS (by rw [det144]; norm_num) (by rw [det144]; norm_num) hsym, ddot_pk1 hsym, e1, e2, cdot144,
      dE_shear, ddot_shear]
    norm_num

/-! ### C102 -/

/-- C102: the returned tangent is the derivative of the conjugate stress with respect to the deformation gradient, when the
largest two squared stretches differ or all three coincide, for small strain laws with symmetric stress, differentiable
with the symmetric tangent they return. -/
theorem c102_tangent_partial (he : 0 ≤ eps) (hs : IsSolver solver) {hpp : Mat ℝ 3 → Outcome (Mat ℝ 3 × Tens ℝ 3)}
    {T : Mat ℝ 3 → Mat ℝ 3} {Ct : Mat ℝ 3 → Tens ℝ 3} (hl : ∀ E, hpp E = .ok (T E, Ct E))
    (hT : ∀ E, Symm E → Symm (T E)) {S : Mat ℝ 3 → Mat ℝ 3}
    (hS : IsConjugate (fun F => 0 < det F) (strain solver) T S) {F : Mat ℝ 3} (hF : 1 / 100 < det F)
    (hCt : IsTangentOn Symm T (tmProd (Ct (strain solver F))) (strain solver F))
    (hM : ∀ i j k l, get (Ct (strain solver F)) ⟨i, j, k, l⟩ = get (Ct (strain solver F)) ⟨k, l, i, j⟩)
    (hr : Regular eps tiny (evs solver F)) :
    ∃ A, whole3D eps tiny solver hpp true F = .ok (S F, A) ∧ IsTangentOn (fun _ => True) S (tmProd A) F := by
  have h0 : 0 < det F := lt_trans (by norm_num) hF
  have hc := coef_of_regular he hs h0.ne' hr
  have hp := evs_pos hs h0.ne'
  refine ⟨codeTangent eps tiny (evs solver F) (evv solver F) F (T (strain solver F)) (Ct (strain solver F)) true,
    (whole_eq hl hF true).trans ?_, ?_⟩
  · rw [mtProd_projector hp hc (hT _ (strain_symm F)), conjugate_unique hs hS h0 h0.ne' (hT _ (strain_symm F))]
  · intro A H t hA _ h
    obtain ⟨h1, h2⟩ := conjugate_tangent hs hT hS h0 hCt h hA
    rw [codeTangent, if_neg (by decide), tangent_spec hp hc (hT _ (strain_symm F)) hM _ _ _ h1]
    exact h2

/-- C102: plane strain; the in-plane parts of stress and tangent. -/
theorem c102_plane_partial (he : 0 ≤ eps) (hs : IsSolver solver) {hpp : Mat ℝ 3 → Outcome (Mat ℝ 3 × Tens ℝ 3)}
    {T : Mat ℝ 3 → Mat ℝ 3} {Ct : Mat ℝ 3 → Tens ℝ 3} (hl : ∀ E, hpp E = .ok (T E, Ct E))
    (hT : ∀ E, Symm E → Symm (T E)) {S : Mat ℝ 3 → Mat ℝ 3}
    (hS : IsConjugate (fun F => 0 < det F) (strain solver) T S) {F : Mat ℝ 2} (hF : 1 / 100 < det F)
    (hCt : IsTangentOn Symm T (tmProd (Ct (strain solver (matrix3DOne F)))) (strain solver (matrix3DOne F)))
    (hM : ∀ i j k l, get (Ct (strain solver (matrix3DOne F))) ⟨i, j, k, l⟩ =
      get (Ct (strain solver (matrix3DOne F))) ⟨k, l, i, j⟩)
    (hr : Regular eps tiny (evs solver (matrix3DOne F))) :
    ∃ A, whole2D eps tiny solver hpp true F = .ok (matrix2 (S (matrix3DOne F)), A) ∧
      IsTangentOn (fun _ => True) (fun F => matrix2 (S (matrix3DOne F))) (tmProd A) F := by
  obtain ⟨A, h1, h2⟩ := c102_tangent_partial he hs hl hT hS (by rw [Hyper.det_matrix3DOne]; exact hF) hCt hM hr
  refine ⟨tensor2 A, by rw [whole2D, h1]; rfl, ?_⟩
  rintro B H t rfl - hB
  rw [Mgis.c70_plane]
  exact fun i j => h2 _ _ t rfl trivial (Hyper.velocity_matrix3DOne hB) _ _

/-- C102: violated by the linear elastic law: at the stretches `1, 2, 2` the tangent is not the derivative of the stress,
for any positive shear modulus and nonnegative first Lamé parameter. -/
theorem c102_tangent_violated (he : 0 ≤ eps) (he1 : eps ≤ 1 / 10) (ht : tiny ≤ 1) (q : Qp) {d : Data} (hmu : 0 < d.mu)
    (hla : 0 ≤ d.lambda) :
    ∃ solver, IsSolver solver ∧ ∀ S, IsConjugate (fun F => 0 < det F) (strain solver) (elasticStress d) S →
      ∃ F A, 1 < det F ∧ whole3D eps tiny solver (elastic q d) true F = .ok (S F, A) ∧
        ¬ IsTangentOn (fun _ => True) S (tmProd A) F := by
  obtain ⟨s, hs, e1, e2⟩ := exists_solver144
  refine ⟨s, hs, fun S hS => ?_⟩
  have hd : 0 < det F144 := by rw [det144]; norm_num
  have e3 : strain s F144 = elog lam144 (idm 3) := by rw [strain, e1, e2]
  have hT := elastic_symm d _ (strain_symm (solver := s) F144)
  have hp := evs_pos hs hd.ne'
  have hdiag := fun i j (hij : i ≠ j) => pull_diag (hs.eig _ (symm_cg F144)) (elastic_isotropic d) hij
  refine ⟨F144, codeTangent eps tiny (evs s F144) (evv s F144) F144 (elasticStress d (strain s F144))
    (elasticModulus3D d) true, by rw [det144]; norm_num, ?_, fun h => ?_⟩
  · rw [whole_eq (elastic_eq q d) (by rw [det144]; norm_num) true,
      mtProd_projector_diag (V := evv s F144) hp hT hdiag, conjugate_unique hs hS hd hd.ne' hT]
  · have hv1 := h _ shear12 0 (by simp) trivial (line_velocity F144 shear12)
    obtain ⟨-, hv2⟩ := conjugate_tangent hs (elastic_symm d) hS hd (elastic_tangent d _) (line_velocity F144 shear12)
      (by simp)
    have key := (hv1 1 2).unique (hv2 1 2)
    have hpk2 : mtProd (elasticStress d (strain s F144)) (projectorPK2 eps tiny (evs s F144) (evv s F144)) =
        (2 : ℝ) • dE (evs s F144) (evv s F144) (elasticStress d (strain s F144)) := by
      rw [projectorPK2_eq, mtProd_projector_diag (V := evv s F144) hp hT hdiag, pk1, idm_mul]
    rw [codeTangent, if_neg (by decide), hpk2, tmProd_ctoa (c2_major (elastic_major d) (tl_major hT _))
      (fun i j => by simp only [Pi.smul_apply, dE_symm _ _ hT i j]), Pi.add_apply, Pi.add_apply, Pi.add_apply,
      Pi.add_apply] at key
    have key := add_right_cancel key
    have hFH : mul (tpose F144) shear12 = (2 : ℝ) • shear12 := by
      funext i j
      fin_cases i <;> fin_cases j <;> simp [mul, tpose, F144, shear12, Fin.sum_univ_three]
    have hFX : ∀ X : Mat ℝ 3, mul F144 X 1 2 = 2 * X 1 2 := fun X => by
      simp [mul, F144, Fin.sum_univ_three]
    have hCt : ∀ c : ℝ, tmProd (elasticModulus3D d) (c • shear12) = (2 * d.mu * c) • shear12 := fun c => by
      rw [tmProd_elastic d (fun i j => by fin_cases i <;> fin_cases j <;> rfl)]
      funext i j
      fin_cases i <;> fin_cases j <;> simp [elasticStress, shear12, trace, Fin.sum_univ_three, idm]
    have hx : tpose ((2 : ℝ) • shear12) + (2 : ℝ) • shear12 = (4 : ℝ) • shear12 := by
      funext i j
      fin_cases i <;> fin_cases j <;> simp [shear12, tpose] <;> norm_num
    have hP : tmProd (projectorPK2 eps tiny lam144 (idm 3)) ((2 : ℝ) • shear12) = ((4 : ℝ) / 2) • shear12 := by
      rw [projectorPK2_eq, tmProd_projector, cdot_idm, hx, code_shear he he1 ht]
    have hd2 : d2E lam144 (idm 3) (fun i j => if i = j then ![d.lambda * Real.log 4, b144 d, b144 d] i else 0)
        ((4 : ℝ) • shear12) 1 2 = -b144 d / 8 := by
      have h4 : scaleDiff2 4 4 4 = -1 / 64 := scale2_144
      rw [d2E, conj_idm, pull_idm, pull_idm]
      simp [Fin.sum_univ_three, shear12, lam144, h4]
      ring
    rw [hFX, hFX, hFH, e3, e1, e2, stress144, tmProd_add, (TensorAlg.c45_contracted _ _ zero _).2.2,
      (TensorAlg.c45_contracted _ _ zero _).2.2, ← (TensorAlg.c45_mt_prod zero _ _).2, hP, hCt, mtProd_shear he he1 ht,
      tl_shear he he1 ht, cdot144, dE_shear, hCt, dE_shear] at key
    simp only [Pi.add_apply, Pi.smul_apply, smul_eq_mul, hd2] at key
    have hsh : shear12 1 2 = 1 := rfl
    rw [hsh] at key
    have := b144_gt hmu hla
    linarith

/-- Non-vacuity of C101 and C102: some solver, the linear elastic law and its conjugate stress, at the undeformed state. -/
example (q : Qp) (d : Data) : ∃ solver S A, IsSolver solver ∧
    IsConjugate (fun F => 0 < det F) (strain solver) (elasticStress d) S ∧
    whole3D 0 0 solver (elastic q d) true (idm 3) = .ok (S (idm 3), A) ∧
    IsTangentOn (fun _ => True) S (tmProd A) (idm 3) := by
  have hC : cauchyGreenRight (idm 3) = idm 3 := by rw [cauchyGreenRight, tpose_idm, idm_mul]
  have hd : det (idm 3) = 1 := by rw [det, of_idm, Matrix.det_one]
  obtain ⟨s, hs, h⟩ := exists_solver_at (C := idm 3) (r := (fun _ => 1, idm 3))
    ⟨fun i j => by fin_cases i <;> fin_cases j <;> simp [idm, Fin.sum_univ_three],
      fun i j => by fin_cases i <;> fin_cases j <;> simp [idm, Fin.sum_univ_three]⟩ le_rfl le_rfl
  have he : evs s (idm 3) = fun _ => 1 := by rw [evs, hC, h]
  obtain ⟨S, hS⟩ := c101_conjugate hs (elastic_symm d)
  obtain ⟨A, h1, h2⟩ := c102_tangent_partial (eps := 0) (tiny := 0) le_rfl hs (elastic_eq q d) (elastic_symm d) hS
    (F := idm 3) (by rw [hd]; norm_num) (elastic_tangent d _) (elastic_major d)
    (by rw [he]; exact ⟨fun _ _ _ => rfl, fun _ => rfl⟩)
  exact ⟨s, S, A, hs, hS, h1, h2⟩

end Verif.Props.LogStrain
