import Verif.Lemmas.HyperLaw
import Verif.Lemmas.Hyper
import Verif.Lemmas.PlasticLaw
/-!
Properties of the hyperelastic laws.
-/
namespace Verif.Props.Hyper
open Verif.Tensor Verif.TensorConv Verif.Mech Verif.Hyper Verif.Spec Verif.Lemmas.Mech Verif.Lemmas.Plastic Verif.Lemmas.Hyper

/-- C98: for each of the six volumetric functions and every deformation gradient with positive determinant, the Neo-Hookean
law returns a stress that is the derivative of the documented stored energy, its derivative as tangent, and a symmetric
Kirchhoff stress. -/
theorem c98_stress {d : Data} (h1 : 1 ≤ d.type) (h6 : d.type ≤ 6) {F : Mat ℝ 3} (hF : 0 < det F) :
    ∃ P A, neo3D F d = .ok (P, A) ∧ IsStressOf (neoHookean d.lambda d.mu (docU d.type)) P F ∧
      IsTangentOn (fun _ => True) (fun F => stressOf (neo3D F d)) (tmProd A) F ∧ Symm (mul P (tpose F)) := by
  obtain ⟨f1, f2, hv1, hv2, hU, hT, -⟩ := vol_spec h1 h6
  refine ⟨_, _, neo_eq hv1 hv2 hF, ?_, ?_, kirchhoff_symm hF.ne' _ _⟩
  · rintro A H t rfl h
    exact neo_energy h hF (hU _ hF)
  · rintro A H t rfl - h
    refine velocity_congr (neo_tangent h hF (hT _ hF)) ((eventually_pos h hF).mono fun s hs => ?_)
    show stressOf (neo3D (A s) d) = _
    rw [neo_eq hv1 hv2 hs]
    rfl

/-- C98: inverted deformations and other types are refused; the constructors of `MaterialData` with parameters set the type
to `0`, so that the law always throws until `setType` is called. -/
theorem c98_refused (d : Data) (F : Mat ℝ 3) (lambda mu H K s : ℝ) :
    (det F ≤ 0 → ∃ m, neo3D F d = .throws m) ∧ (¬ (1 ≤ d.type ∧ d.type ≤ 6) → ∃ m, neo3D F d = .throws m) ∧
    (∃ m, neo3D F (Data.of5 lambda mu H K s) = .throws m) ∧ ∃ m, neo3D F (Data.of2 s lambda mu) = .throws m := by
  have key : ∀ d : Data, ¬ (1 ≤ d.type ∧ d.type ≤ 6) → ∃ m, neo3D F d = .throws m := by
    intro d hd
    have hbad : ∀ J, volT1 d.type J = badType := by
      intro J
      unfold volT1
      split <;> first | rfl | (exfalso; omega)
    unfold neo3D neoStress checked
    split
    · exact ⟨_, rfl⟩
    · dsimp only
      rw [hbad]; exact ⟨_, rfl⟩
  refine ⟨fun h => ?_, key d, key (Data.of5 lambda mu H K s) (by simp [Data.of5]),
    key (Data.of2 s lambda mu) (by simp [Data.of2])⟩
  unfold neo3D neoStress checked
  rw [if_pos h]
  exact ⟨_, rfl⟩

/-- C98: the undeformed state carries no stress. -/
theorem c98_reference {d : Data} (h1 : 1 ≤ d.type) (h6 : d.type ≤ 6) : neoStress d (idm 3) = .ok 0 := by
  obtain ⟨f1, f2, hv1, -, -, -, h0⟩ := vol_spec h1 h6
  have hd : det (idm 3) = 1 := by rw [det, of_idm, Matrix.det_one]
  have hi : inv (idm 3) = idm 3 := of_inj (by rw [of_inv, of_idm, inv_one])
  rw [neoStress, checked_ok (by rw [hd]; exact one_pos), hv1, Outcome.bind_ok, hd, h0, hi, tpose_idm]
  congr 1
  funext i j
  simp

/-- C98: the law does not depend on the observer. -/
theorem c98_objective {d : Data} (h1 : 1 ≤ d.type) (h6 : d.type ≤ 6) {F Q : Mat ℝ 3} (hQ : Rotation Q) (hF : 0 < det F) :
    ∃ P, neoStress d F = .ok P ∧ neoStress d (mul Q F) = .ok (mul Q P) := by
  obtain ⟨f1, f2, hv1, -, -, -, -⟩ := vol_spec h1 h6
  obtain ⟨a, b, -⟩ := rotation_facts hQ F
  refine ⟨_, by rw [neoStress, checked_ok hF, hv1, Outcome.bind_ok], ?_⟩
  rw [neoStress, checked_ok (by rw [a]; exact hF), hv1, Outcome.bind_ok, a, b, Lemmas.Mech.mul_add, Lemmas.Mech.mul_smul,
    Lemmas.Mech.mul_smul]

/-- C98 for the energy, except for type 4: `compute_energy` is the documented energy. -/
theorem c98_energy_partial {d : Data} (h1 : 1 ≤ d.type) (h6 : d.type ≤ 6) (h4 : d.type ≠ 4) {F : Mat ℝ 3}
    (hF : 0 < det F) : neoEnergy d F = .ok (neoHookean d.lambda d.mu (docU d.type) F) := by
  have hU : ∀ J, volU d.type J = .ok (docU d.type J) := by
    intro J
    generalize d.type = ty at *
    obtain rfl | rfl | rfl | rfl | rfl : ty = 1 ∨ ty = 2 ∨ ty = 3 ∨ ty = 5 ∨ ty = 6 := by omega
    all_goals simp only [volU, docU, pow_two]
  rw [neoEnergy, checked_ok hF, hU, Outcome.bind_ok, cauchyGreenRight, trace_cg]
  congr 1
  simp only [neoHookean, volEnergy]
  show _ = d.mu / 2 * (sqNorm F - 3) + (d.lambda / 2 * docU d.type (det F) ^ 2 - d.mu * Real.log (det F))
  ring

/-- C98 fails for type 4: `compute_energy`, with `1 / (1 - J)` in place of `1 - 1 / J`, is not the documented energy, and the
stress the law returns is not its derivative. -/
theorem c98_energy_violated {d : Data} (h4 : d.type = 4) (hl : d.lambda ≠ 0) :
    neoEnergy d (stretch 2) ≠ .ok (neoHookean d.lambda d.mu (docU d.type) (stretch 2)) ∧
    ∃ F : Mat ℝ 3, 0 < det F ∧ ∃ P A, neo3D F d = .ok (P, A) ∧
      ∀ W : Mat ℝ 3 → ℝ, (∀ F, 0 < det F → neoEnergy d F = .ok (W F)) → ¬ IsStressOf W P F := by
  have hE : ∀ F : Mat ℝ 3, 0 < det F → neoEnergy d F = .ok (neoHookean d.lambda d.mu (docU d.type) F -
      d.lambda / 2 * docU 4 (det F) ^ 2 + d.lambda / 2 * (1 / (1 - det F)) * (1 / (1 - det F))) := by
    intro F hF
    rw [neoEnergy, checked_ok hF, h4, volU, Outcome.bind_ok, cauchyGreenRight, trace_cg]
    congr 1
    simp only [neoHookean, volEnergy]
    show _ = d.mu / 2 * (sqNorm F - 3) + (d.lambda / 2 * docU 4 (det F) ^ 2 - d.mu * Real.log (det F)) - _ + _
    ring
  constructor
  · rw [hE _ (by rw [det_stretch]; norm_num), det_stretch]
    intro h
    injection h with h
    norm_num [docU] at h
    exact hl (by linarith)
  · have hF : 0 < det (stretch 2) := by rw [det_stretch]; norm_num
    obtain ⟨P, A, hP, hs, -⟩ := c98_stress (d := d) (by omega) (by omega) hF
    refine ⟨stretch 2, hF, P, A, hP, fun W hW hs' => ?_⟩
    have b1 := hs stretch _ 2 rfl (velocity_stretch 2)
    have b2 := hs' stretch _ 2 rfl (velocity_stretch 2)
    obtain ⟨f1, f2, -, -, hU, -, -⟩ := vol_spec (type := 4) (by omega) (by omega)
    have b3 := ((hU 2 two_pos).const_mul d.lambda)
    have b4 : HasDerivAt (fun s : ℝ => d.lambda / 2 * docU 4 s ^ 2) (d.lambda * (f1 2 / 2)) 2 :=
      b3.congr_of_eventuallyEq (Filter.Eventually.of_forall fun s => by ring)
    refine type4_key hl b4 ?_
    refine (((b2.fun_sub b1).fun_add b4).congr_deriv (by ring)).congr_of_eventuallyEq ?_
    filter_upwards [lt_mem_nhds (show (0 : ℝ) < 2 by norm_num)] with s hs0
    have hsd : 0 < det (stretch s) := by rw [det_stretch]; exact hs0
    have := hW _ hsd
    rw [hE _ hsd, det_stretch] at this
    injection this with this
    rw [← this]
    ring

/-- C98 in plane strain. -/
theorem c98_plane {d : Data} (h1 : 1 ≤ d.type) (h6 : d.type ≤ 6) {F : Mat ℝ 2} (hF : 0 < det F) :
    ∃ P A, neo2D F d = .ok (P, A) ∧ IsStressOf (fun F => neoHookean d.lambda d.mu (docU d.type) (matrix3DOne F)) P F ∧
      IsTangentOn (fun _ => True) (fun F => stressOf (neo2D F d)) (tmProd A) F :=
  plane (law := fun F => neo3D F d) (fun F hF => by
    obtain ⟨P, A, a, b, c, -⟩ := c98_stress h1 h6 hF
    exact ⟨P, A, a, b, c⟩) hF

/-- The hypotheses can be met. -/
example : 0 < det (stretch 2) ∧ 1 ≤ (Data.default 1).type ∧ (Data.default 1).type ≤ 6 ∧ Rotation (idm 3) :=
  ⟨by rw [det_stretch]; norm_num, le_rfl, by decide, ⟨by rw [tpose_idm, mul_idm], by rw [det, of_idm, Matrix.det_one]⟩⟩

/-! ### Cavitation -/

/-- C99: the same for the cavitation law. -/
theorem c99_stress {d : Data} (h1 : 1 ≤ d.type) (h6 : d.type ≤ 6) {F : Mat ℝ 3} (hF : 0 < det F) :
    ∃ P A, cav3D F d = .ok (P, A) ∧ IsStressOf (cavitation d.lambda d.mu (docU d.type)) P F ∧
      IsTangentOn (fun _ => True) (fun F => stressOf (cav3D F d)) (tmProd A) F ∧ Symm (mul P (tpose F)) := by
  obtain ⟨f1, f2, hv1, hv2, hU, hT, -⟩ := vol_spec h1 h6
  refine ⟨_, _, cav_eq hv1 hv2 hF, ?_, ?_, kirchhoff_symm hF.ne' _ _⟩
  · rintro A H t rfl h
    exact cav_energy h hF (hU _ hF)
  · rintro A H t rfl - h
    refine velocity_congr (cav_tangent h hF (hT _ hF)) ((eventually_pos h hF).mono fun s hs => ?_)
    show stressOf (cav3D (A s) d) = _
    rw [cav_eq hv1 hv2 hs]
    rfl

/-- C99 in plane strain. -/
theorem c99_plane {d : Data} (h1 : 1 ≤ d.type) (h6 : d.type ≤ 6) {F : Mat ℝ 2} (hF : 0 < det F) :
    ∃ P A, cav2D F d = .ok (P, A) ∧ IsStressOf (fun F => cavitation d.lambda d.mu (docU d.type) (matrix3DOne F)) P F ∧
      IsTangentOn (fun _ => True) (fun F => stressOf (cav2D F d)) (tmProd A) F :=
  plane (law := fun F => cav3D F d) (fun F hF => by
    obtain ⟨P, A, a, b, c, -⟩ := c99_stress h1 h6 hF
    exact ⟨P, A, a, b, c⟩) hF

/-- C99: the law does not depend on the observer. -/
theorem c99_objective {d : Data} (h1 : 1 ≤ d.type) (h6 : d.type ≤ 6) {F Q : Mat ℝ 3} (hQ : Rotation Q) (hF : 0 < det F) :
    ∃ P, cavStress d F = .ok P ∧ cavStress d (mul Q F) = .ok (mul Q P) := by
  obtain ⟨f1, f2, hv1, -, -, -, -⟩ := vol_spec h1 h6
  obtain ⟨a, b, c⟩ := rotation_facts hQ F
  refine ⟨_, by rw [cavStress, checked_ok hF, hv1, Outcome.bind_ok], ?_⟩
  rw [cavStress, checked_ok (by rw [a]; exact hF), hv1, Outcome.bind_ok, a, b]
  dsimp only
  rw [trace_cg, trace_cg, c, Lemmas.Mech.mul_add, Lemmas.Mech.mul_smul, Lemmas.Mech.mul_smul]

/-- C99 for the energy, except for type 4. -/
theorem c99_energy_partial {d : Data} (h1 : 1 ≤ d.type) (h6 : d.type ≤ 6) (h4 : d.type ≠ 4) {F : Mat ℝ 3}
    (hF : 0 < det F) : cavEnergy d F = .ok (cavitation d.lambda d.mu (docU d.type) F) := by
  have hU : ∀ J, volU d.type J = .ok (docU d.type J) := by
    intro J
    generalize d.type = ty at *
    obtain rfl | rfl | rfl | rfl | rfl : ty = 1 ∨ ty = 2 ∨ ty = 3 ∨ ty = 5 ∨ ty = 6 := by omega
    all_goals simp only [volU, docU, pow_two]
  rw [cavEnergy, checked_ok hF, hU, Outcome.bind_ok]
  rw [trace_cg]
  congr 1
  simp only [cavitation, volEnergy]
  show _ = 2 * d.mu / (3 : ℝ) ^ (5 / 4 : ℝ) * sqNorm F ^ (3 / 4 : ℝ) +
    (d.lambda / 2 * docU d.type (det F) ^ 2 - d.mu * Real.log (det F))
  ring

/-- C99 fails for type 4: `compute_energy` is not the documented energy. -/
theorem c99_energy_violated {d : Data} (h4 : d.type = 4) (hl : d.lambda ≠ 0) :
    cavEnergy d (stretch 2) ≠ .ok (cavitation d.lambda d.mu (docU d.type) (stretch 2)) := by
  have hF : 0 < det (stretch 2) := by rw [det_stretch]; norm_num
  rw [cavEnergy, checked_ok hF, h4, volU, Outcome.bind_ok]
  rw [trace_cg]
  intro h
  injection h with h
  simp only [cavitation, volEnergy] at h
  change _ = 2 * d.mu / (3 : ℝ) ^ (5 / 4 : ℝ) * sqNorm (stretch 2) ^ (3 / 4 : ℝ) +
    (d.lambda / 2 * docU 4 (det (stretch 2)) ^ 2 - d.mu * Real.log (det (stretch 2))) at h
  have h' := add_left_cancel h
  rw [det_stretch] at h'
  norm_num [docU] at h'
  exact hl (by linarith)

/-- C99 fails at the reference configuration: the undeformed state carries the pressure `mu (1 - 1 / sqrt 3)`. -/
theorem c99_reference_violated {d : Data} (h1 : 1 ≤ d.type) (h6 : d.type ≤ 6) (hmu : 0 < d.mu) :
    cavStress d (idm 3) = .ok ((d.mu * (1 / Real.sqrt 3 - 1)) • idm 3) ∧ d.mu * (1 / Real.sqrt 3 - 1) < 0 := by
  obtain ⟨f1, f2, hv1, -, -, -, h0⟩ := vol_spec h1 h6
  have hd : det (idm 3) = 1 := by rw [det, of_idm, Matrix.det_one]
  have hi : inv (idm 3) = idm 3 := of_inj (by rw [of_inv, of_idm, inv_one])
  have hs : 1 < Real.sqrt 3 := Real.lt_sqrt_of_sq_lt (by norm_num)
  constructor
  · rw [cavStress, checked_ok (by rw [hd]; exact one_pos), hv1, Outcome.bind_ok, hd, h0, hi, tpose_idm, mul_idm]
    dsimp only
    rw [trace_idm]
    have e : (3 * ((3 : ℕ) : ℝ)) ^ (-1 / 4 : ℝ) = 1 / Real.sqrt 3 := by
      have e9 : (3 * ((3 : ℕ) : ℝ)) = (3 : ℝ) ^ (2 : ℝ) := by norm_num
      rw [e9, ← Real.rpow_mul (by norm_num), Real.sqrt_eq_rpow, one_div, ← Real.rpow_neg (by norm_num)]
      norm_num
    rw [e]
    congr 1
    rw [← add_smul]
    congr 1
    ring
  · refine mul_neg_of_pos_of_neg hmu ?_
    have : 1 / Real.sqrt 3 < 1 := by rw [div_lt_one (by linarith)]; exact hs
    linarith

end Verif.Props.Hyper
