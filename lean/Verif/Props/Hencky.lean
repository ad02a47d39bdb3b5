import Verif.Lemmas.Hencky
import Verif.Lemmas.Plastic
import Mathlib.Analysis.Calculus.Deriv.Inv
import Mathlib.Analysis.Calculus.MeanValue
import Mathlib.Algebra.QuadraticDiscriminant
/-!
Properties of the Hencky-Mises law.
-/
namespace Verif.Props.Hencky
open Verif.Tensor Verif.TensorConv Verif.Mech Verif.Plastic Verif.Spec Verif.Lemmas.Mech Verif.Lemmas.Plastic

/-- C97: at zero strain the stress vanishes and the returned modulus is the derivative of the stress. -/
theorem c97_origin {D : Nat} (hD : D = 2 ∨ D = 3) (d : Data) :
    henckyStress d (0 : Mat ℝ D) = 0 ∧
    IsTangentOn Symm (henckyStress (D := D) d) (tmProd (elasticModulus d D)) 0 := by
  have hs0 : soft (0 : Mat ℝ D) = 1 := by
    have : deviator (0 : Mat ℝ D) = 0 := by rw [deviator_of_trace trace_zero]
    simp [soft, this, sqNorm, inner_zero_left]
  constructor
  · rw [henckyStress_eq, trace_zero]; simp
  · rintro A H t h0 hS h
    rw [elasticModulus, tmProd_add, tmProd_smul, tmProd_smul, tmProd_sym (Or.inr hD) hS, tmProd_ixi]
    intro i j
    simp only [henckyStress_eq]
    have hs := soft_deriv h
    have h1 := ((((hs.const_add 1).const_mul d.mu).fun_mul (h i j)).fun_add
      ((((hs.const_mul (d.mu / 2)).const_sub (d.lambda + d.mu / 2)).fun_mul (velocity_trace h)).mul_const (idm D i j)))
    refine h1.congr_deriv ?_
    rw [h0, hs0, trace_zero]
    simp only [Pi.add_apply, Pi.smul_apply, smul_eq_mul, Pi.zero_apply]
    ring

/-- C97: in two dimensions the stress derives from the stored energy
`mu (|dev|^2 / 2 + sqrt(1 + |dev|^2)) + (lambda + mu) / 2 tr^2`. -/
theorem c97_energy_partial (d : Data) (strain : Mat ℝ 2) :
    IsStressOf (henckyEnergy d.lambda d.mu) (hencky2D strain d).1 strain := by
  have hW : ∀ E : Mat ℝ 2, henckyEnergy d.lambda d.mu E =
      d.mu * (sqNorm (deviator E) / 2 + Real.sqrt (1 + sqNorm (deviator E))) + (d.lambda + d.mu) / 2 * trace E ^ 2 := by
    intro E
    have hdev : planarDev E = deviator E := by
      funext i j
      simp [planarDev, deviator, trace, idm, Fin.sum_univ_two]
    have htr : E 0 0 + E 1 1 = trace E := by simp [trace, Fin.sum_univ_two]
    rw [henckyEnergy, hdev, htr]
    rfl
  rintro A H t rfl h
  have e2 : (hencky2D (A t) d).1 = henckyStress d (A t) := by
    rw [hencky2D]
    congr 1
    funext i j
    fin_cases i <;> fin_cases j <;> rfl
  simp only [hW]
  have h1 := velocity_sqNorm (velocity_deviator h)
  have h2 := (h1.const_add 1).sqrt (by have := sqNorm_nonneg (deviator (A t)); linarith)
  have h3 := (((h1.div_const 2).fun_add h2).const_mul d.mu).fun_add
    (((velocity_trace h).fun_pow 2).const_mul ((d.lambda + d.mu) / 2))
  refine h3.congr_deriv ?_
  show _ = inner (hencky2D (A t) d).1 H
  rw [e2, planar_eq, inner_add_left, inner_smul_left, inner_smul_left, inner_comm (idm 2), inner_idm, inner_dev two_pos,
    soft]
  have := (sqrt_pos (A t)).ne'
  field_simp
  push_cast
  ring

/-- C97: in two dimensions the stress is strongly monotone in the strain. -/
theorem c97_monotone_partial {d : Data} (hmu : 0 < d.mu) (E E' : Mat ℝ 2) :
    d.mu * sqNorm (deviator (E - E')) + (d.lambda + d.mu) * trace (E - E') ^ 2 ≤
      ddot (fun i j => (hencky2D E d).1 i j - (hencky2D E' d).1 i j) (fun i j => E i j - E' i j) := by
  have e2 : ∀ E : Mat ℝ 2, (hencky2D E d).1 = henckyStress d E := by
    intro E
    rw [hencky2D]
    congr 1
    funext i j
    fin_cases i <;> fin_cases j <;> rfl
  show _ ≤ inner ((hencky2D E d).1 - (hencky2D E' d).1) (E - E')
  have h1 := soft_mono (sqNorm_nonneg (deviator E)) (sqNorm_nonneg (deviator E')) (cauchy (deviator E) (deviator E'))
  have h2 := mul_nonneg hmu.le h1
  rw [e2, e2, planar_eq, planar_eq, inner_sub_left, inner_add_left, inner_add_left]
  simp only [inner_smul_left, inner_comm (idm 2), inner_idm]
  rw [← inner_dev two_pos E (E - E'), ← inner_dev two_pos E' (E - E'), deviator_sub, inner_sub_right, inner_sub_right, inner_comm (deviator E') (deviator E), sqNorm, inner_sub_left,
    inner_sub_right, inner_sub_right, inner_comm (deviator E') (deviator E), trace_sub]
  unfold soft
  unfold sqNorm at h2
  have e3 : ∀ A : Mat ℝ 2, inner A A = sqNorm A := fun _ => rfl
  simp only [e3] at h2 ⊢
  nlinarith [h2]

/-- C97 fails in three dimensions: the stress derives from no energy, as its trace depends on the deviator of the strain
and its deviator not on the trace. -/
theorem c97_energy_violated {d : Data} (hmu : 0 < d.mu) :
    ¬ ∃ W : Mat ℝ 3 → ℝ, ∀ strain, IsStressOf W (hencky3D strain d).1 strain := by
  rintro ⟨W, hW⟩
  let E : ℝ → ℝ → Mat ℝ 3 := fun x y => ![![x, y, 0], ![y, x, 0], ![0, 0, x]]
  have hdev : ∀ x y, deviator (E x y) = ![![0, y, 0], ![y, 0, 0], ![0, 0, 0]] := by
    intro x y
    funext i j
    fin_cases i <;> fin_cases j <;> simp [E, deviator, trace, idm, Fin.sum_univ_three] <;> ring
  have hsoft : ∀ x y, soft (E x y) = (Real.sqrt (1 + 2 * y ^ 2))⁻¹ := by
    intro x y
    rw [soft, hdev]
    congr 3
    simp [sqNorm, inner, Fin.sum_univ_three]
    ring
  have hst : ∀ x y, (hencky3D (E x y) d).1 = (d.mu * (1 + (Real.sqrt (1 + 2 * y ^ 2))⁻¹)) • E x y +
      ((d.lambda + d.mu / 2 - d.mu / 2 * (Real.sqrt (1 + 2 * y ^ 2))⁻¹) * (3 * x)) • idm 3 := by
    intro x y
    have ht : trace (E x y) = 3 * x := by
      simp [E, trace, Fin.sum_univ_three]
      ring
    rw [hencky3D, henckyStress_eq, hsoft, ht]
  have hvx : ∀ x y, Velocity (fun s => E s y) (idm 3) x := by
    intro x y i j
    fin_cases i <;> fin_cases j <;> simp [E, idm] <;>
      first | exact hasDerivAt_id' x | exact hasDerivAt_const x _
  have hvy : ∀ x y, Velocity (fun s => E x s) ![![0, 1, 0], ![1, 0, 0], ![0, 0, 0]] y := by
    intro x y i j
    fin_cases i <;> fin_cases j <;> simp [E] <;>
      first | exact hasDerivAt_id' y | exact hasDerivAt_const y _
  have hx : ∀ x y, HasDerivAt (fun s => W (E s y))
      (3 * x * (d.mu * (1 + (Real.sqrt (1 + 2 * y ^ 2))⁻¹)) +
        9 * x * (d.lambda + d.mu / 2 - d.mu / 2 * (Real.sqrt (1 + 2 * y ^ 2))⁻¹)) x := by
    intro x y
    refine (hW (E x y) (fun s => E s y) (idm 3) x rfl (hvx x y)).congr_deriv ?_
    rw [hst]
    simp [ddot, idm, E, Fin.sum_univ_three]
    ring
  have hy : ∀ x y, HasDerivAt (fun s => W (E x s)) (2 * y * (d.mu * (1 + (Real.sqrt (1 + 2 * y ^ 2))⁻¹))) y := by
    intro x y
    refine (hW (E x y) (fun s => E x s) _ y rfl (hvy x y)).congr_deriv ?_
    rw [hst]
    simp [ddot, idm, E, Fin.sum_univ_three]
    ring
  have hsep : ∀ x y, W (E x y) - W (E 0 y) = W (E x 0) - W (E 0 0) := by
    intro x y
    refine is_const_of_deriv_eq_zero (f := fun y => W (E x y) - W (E 0 y))
      (fun s => ((hy x s).fun_sub (hy 0 s)).differentiableAt) (fun s => ?_) y 0
    rw [((hy x s).fun_sub (hy 0 s)).deriv, sub_self]
  have h1 : HasDerivAt (fun s => W (E s 1)) (3 * 1 * (d.mu * (1 + (Real.sqrt (1 + 2 * 0 ^ 2))⁻¹)) +
        9 * 1 * (d.lambda + d.mu / 2 - d.mu / 2 * (Real.sqrt (1 + 2 * 0 ^ 2))⁻¹)) 1 := by
    have e : (fun s => W (E s 1)) = fun s => W (E s 0) - W (E 0 0) + W (E 0 1) := by
      funext s
      have := hsep s 1
      linarith
    rw [e]
    exact ((hx 1 0).sub_const _).add_const _
  have h2 := (hx 1 1).unique h1
  have hs : (Real.sqrt (1 + 2 * 1 ^ 2))⁻¹ = 1 := by
    have e0 : (Real.sqrt (1 + 2 * 0 ^ 2))⁻¹ = 1 := by norm_num
    rw [e0] at h2
    have h3 : d.mu * ((Real.sqrt (1 + 2 * 1 ^ 2))⁻¹ - 1) = 0 := by linarith
    have := (mul_eq_zero.mp h3).resolve_left hmu.ne'
    linarith
  have h4 : Real.sqrt (1 + 2 * 1 ^ 2) = 1 := by rw [← inv_inv (Real.sqrt _), hs, inv_one]
  have h5 := Real.sq_sqrt (show (0 : ℝ) ≤ 1 + 2 * 1 ^ 2 by norm_num)
  rw [h4] at h5
  norm_num at h5

/-- Away from zero strain the modulus returned is not the derivative of the stress. -/
theorem c97_tangent_violated {d : Data} (hmu : 0 < d.mu) :
    ¬ IsTangentOn Symm (fun e => (hencky2D e d).1) (tmProd (hencky2D ![![0, 1], ![1, 0]] d).2) ![![0, 1], ![1, 0]] := by
  intro h
  let S : Mat ℝ 2 := ![![0, 1], ![1, 0]]
  have hS : Symm S := by
    intro i j
    fin_cases i <;> fin_cases j <;> rfl
  have hv : Velocity (fun s : ℝ => s • S) S 1 := fun i j => by
    simpa using (hasDerivAt_id' (1 : ℝ)).mul_const (S i j)
  have h1 := h (fun s => s • S) S 1 (one_smul _ _) hS hv 0 1
  have hst : ∀ s : ℝ, (hencky2D (s • S) d).1 0 1 = d.mu * (1 + (Real.sqrt (1 + 2 * s ^ 2))⁻¹) * s := by
    intro s
    have e : matrix2 (matrix3D (s • S)) = s • S := by funext i j; fin_cases i <;> fin_cases j <;> rfl
    have ht : trace (s • S) = 0 := by simp [trace, S, Fin.sum_univ_two]
    rw [hencky2D, e, henckyStress_eq, soft, ht, deviator_of_trace ht]
    have : sqNorm (s • S) = 2 * s ^ 2 := by
      rw [sqNorm_smul]
      simp [sqNorm, inner, S, Fin.sum_univ_two]
      ring
    rw [this]
    simp [S]
  have hL : tmProd (hencky2D S d).2 S 0 1 = 2 * d.mu := by
    rw [hencky2D, elasticModulus, tmProd_add, tmProd_smul, tmProd_smul, tmProd_sym (by simp) hS, tmProd_ixi]
    simp [S, trace, Fin.sum_univ_two, idm]
  simp only [hst] at h1
  change HasDerivAt _ (tmProd (hencky2D S d).2 S 0 1) 1 at h1
  rw [hL] at h1
  have hp : 0 < Real.sqrt (1 + 2 * (1 : ℝ) ^ 2) := Real.sqrt_pos.mpr (by norm_num)
  have h2 := (((((((hasDerivAt_id' (1 : ℝ)).fun_pow 2).const_mul 2).const_add 1).sqrt (by norm_num)).fun_inv hp.ne').const_add
    1).const_mul d.mu |>.fun_mul (hasDerivAt_id' (1 : ℝ))
  have h3 := h1.unique h2
  have h5 := Real.sq_sqrt (show (0 : ℝ) ≤ 1 + 2 * 1 ^ 2 by norm_num)
  set r := Real.sqrt (1 + 2 * (1 : ℝ) ^ 2)
  rw [h5] at h3
  have hne := hp.ne'
  have hm := hmu.ne'
  field_simp at h3
  norm_num at h3 h5
  nlinarith [h3, h5, hp]

end Verif.Props.Hencky
