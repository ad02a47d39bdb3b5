import Verif.Lemmas.Hyper
import Verif.Lemmas.PlasticLaw
/-! Lemmas for Hyper.lean. -/
namespace Verif.Props.Hyper
open Verif.Tensor Verif.TensorConv Verif.Mech Verif.Hyper Verif.Spec Verif.Lemmas.Mech Verif.Lemmas.Plastic Verif.Lemmas.Hyper

/-- The stress a law returns. -/
noncomputable def stressOf {D : Nat} (o : Outcome (Mat ℝ D × Tens ℝ D)) : Mat ℝ D :=
  match o with
  | .ok r => r.1
  | _ => 0

theorem eventually_pos {A : ℝ → Mat ℝ 3} {H : Mat ℝ 3} {t : ℝ} (h : Velocity A H t) (h0 : 0 < det (A t)) :
    ∀ᶠ s in nhds t, 0 < det (A s) := (velocity_det h h0.ne').continuousAt.eventually_const_lt h0

theorem velocity_congr {D : Nat} {A B : ℝ → Mat ℝ D} {H : Mat ℝ D} {t : ℝ} (h : Velocity A H t)
    (he : ∀ᶠ s in nhds t, B s = A s) : Velocity B H t := fun i j =>
  (h i j).congr_of_eventuallyEq (he.mono fun s hs => by simp only [hs])

/-- `c1 F + c2 F^{-T}` has a symmetric Kirchhoff stress. -/
theorem kirchhoff_symm {F : Mat ℝ 3} (h : det F ≠ 0) (c1 c2 : ℝ) :
    Symm (mul (c1 • F + c2 • tpose (inv F)) (tpose F)) := by
  have e : mul (c1 • F + c2 • tpose (inv F)) (tpose F) = c1 • mul F (tpose F) + c2 • idm 3 := by
    rw [Lemmas.Mech.add_mul, Lemmas.Mech.smul_mul, Lemmas.Mech.smul_mul, ← tpose_mul, Lemmas.Mech.mul_inv h, tpose_idm]
  rw [e]
  intro i j
  simp only [Pi.add_apply, Pi.smul_apply, smul_eq_mul, mul, tpose, idm, eq_comm (a := i)]
  congr 2
  exact Finset.sum_congr rfl fun k _ => mul_comm _ _

/-- Rotations. -/
structure Rotation (Q : Mat ℝ 3) : Prop where
  orth : mul (tpose Q) Q = idm 3
  det : det Q = 1

theorem rotation_facts {Q : Mat ℝ 3} (h : Rotation Q) (F : Mat ℝ 3) :
    det (mul Q F) = det F ∧ tpose (inv (mul Q F)) = mul Q (tpose (inv F)) ∧ sqNorm (mul Q F) = sqNorm F := by
  have hQ : inv Q = tpose Q := of_inj (by
    rw [of_inv]
    refine Matrix.inv_eq_left_inv ?_
    rw [← of_mul, h.orth, of_idm])
  refine ⟨?_, ?_, ?_⟩
  · have := h.det
    rw [det] at this
    rw [det, of_mul, Matrix.det_mul, this, one_mul, det]
  · have e : inv (mul Q F) = mul (inv F) (inv Q) := of_inj (by rw [of_inv, of_mul, Matrix.mul_inv_rev]; rfl)
    rw [e, hQ, tpose_mul, tpose_tpose]
  · rw [sqNorm, inner_mul_left, ← Lemmas.Mech.mul_assoc, h.orth, idm_mul, sqNorm]

/-- A stretch along the first axis. -/
noncomputable def stretch (s : ℝ) : Mat ℝ 3 := ![![s, 0, 0], ![0, 1, 0], ![0, 0, 1]]

theorem det_stretch (s : ℝ) : det (stretch s) = s := by
  simp [det, stretch, Matrix.det_fin_three]

theorem velocity_stretch (s : ℝ) : Velocity stretch ![![1, 0, 0], ![0, 0, 0], ![0, 0, 0]] s := by
  intro i j
  fin_cases i <;> fin_cases j <;> simp [stretch] <;>
    first | exact hasDerivAt_id' s | exact hasDerivAt_const s _

/-- The volumetric energy computed for type 4 is not a potential of the stress. -/
theorem type4_key {lambda : ℝ} (hl : lambda ≠ 0) {p : ℝ}
    (h1 : HasDerivAt (fun s : ℝ => lambda / 2 * docU 4 s ^ 2) p 2)
    (h2 : HasDerivAt (fun s : ℝ => lambda / 2 * (1 / (1 - s)) * (1 / (1 - s))) p 2) : False := by
  have a1 := ((((hasDerivAt_const (2 : ℝ) (1 : ℝ)).fun_div (hasDerivAt_id' 2) two_ne_zero).const_sub 1).fun_pow
    2).const_mul (lambda / 2)
  have a2 := (((hasDerivAt_const (2 : ℝ) (1 : ℝ)).fun_div ((hasDerivAt_id' (2 : ℝ)).const_sub 1) (by norm_num)).const_mul
    (lambda / 2)).fun_mul ((hasDerivAt_const (2 : ℝ) (1 : ℝ)).fun_div ((hasDerivAt_id' (2 : ℝ)).const_sub 1) (by norm_num))
  have e1 := h1.unique a1
  have e2 := h2.unique a2
  rw [e1] at e2
  norm_num at e2
  exact hl (by linarith)

theorem det_matrix3DOne (F : Mat ℝ 2) : det (matrix3DOne F) = det F := by
  simp [det, Matrix.det_fin_three, Matrix.det_fin_two, matrix3DOne]

theorem velocity_matrix3DOne {A : ℝ → Mat ℝ 2} {H : Mat ℝ 2} {t : ℝ} (h : Velocity A H t) :
    Velocity (fun s => matrix3DOne (A s)) (matrix3D H) t := by
  intro i j
  simp only [matrix3D, matrix3DOne]
  split
  · exact h _ _
  · exact hasDerivAt_const _ _

theorem ddot_plane (P : Mat ℝ 3) (H : Mat ℝ 2) : ddot P (matrix3D H) = ddot (matrix2 P) H := by
  simp [ddot, Fin.sum_univ_three, Fin.sum_univ_two, matrix3D, matrix2]

/-- Plane strain for a law with a potential and a tangent. -/
theorem plane {law : Mat ℝ 3 → Outcome (Mat ℝ 3 × Tens ℝ 3)} {W : Mat ℝ 3 → ℝ}
    (hl : ∀ F, 0 < det F → ∃ P A, law F = .ok (P, A) ∧ IsStressOf W P F ∧
      IsTangentOn (fun _ => True) (fun F => stressOf (law F)) (tmProd A) F) {F : Mat ℝ 2} (hF : 0 < det F) :
    ∃ P A, ((law (matrix3DOne F)).bind fun r => Outcome.ok (matrix2 r.1, tensor2 r.2)) = .ok (P, A) ∧
      IsStressOf (fun F => W (matrix3DOne F)) P F ∧
      IsTangentOn (fun _ => True)
        (fun F => stressOf ((law (matrix3DOne F)).bind fun r => Outcome.ok (matrix2 r.1, tensor2 r.2))) (tmProd A) F := by
  obtain ⟨P, A, h, hs, ht⟩ := hl (matrix3DOne F) (by rw [det_matrix3DOne]; exact hF)
  refine ⟨matrix2 P, tensor2 A, by rw [h]; rfl, ?_, ?_⟩
  · rintro B H t rfl hB
    exact (hs _ _ t rfl (velocity_matrix3DOne hB)).congr_deriv (ddot_plane P H)
  · rintro B H t rfl - hB
    have h3 := ht _ _ t rfl trivial (velocity_matrix3DOne hB)
    rw [Props.Mgis.c70_plane]
    have h4 : Velocity (fun s => matrix2 (stressOf (law (matrix3DOne (B s))))) (matrix2 (tmProd A (matrix3D H))) t :=
      fun i j => h3 _ _
    refine velocity_congr h4 ((eventually_pos (velocity_matrix3DOne hB) (by rw [det_matrix3DOne]; exact hF)).mono
      fun s hs => ?_)
    obtain ⟨P', A', h', -⟩ := hl _ hs
    show stressOf ((law (matrix3DOne (B s))).bind _) = _
    rw [h']
    rfl

end Verif.Props.Hyper
