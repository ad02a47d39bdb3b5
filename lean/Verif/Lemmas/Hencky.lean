import Verif.Lemmas.Plastic
import Mathlib.Analysis.Calculus.Deriv.Inv
import Mathlib.Analysis.Calculus.MeanValue
import Mathlib.Algebra.QuadraticDiscriminant
/-! Lemmas for Hencky.lean. -/
namespace Verif.Props.Hencky
open Verif.Tensor Verif.TensorConv Verif.Mech Verif.Plastic Verif.Spec Verif.Lemmas.Mech Verif.Lemmas.Plastic

/-- `1 / sqrt(1 + |dev|^2)`. -/
noncomputable def soft {D : Nat} (E : Mat ℝ D) : ℝ := (Real.sqrt (1 + sqNorm (deviator E)))⁻¹

theorem norm_mul_norm {D : Nat} (A : Mat ℝ D) : Mech.norm A * Mech.norm A = sqNorm A := Real.mul_self_sqrt (sqNorm_nonneg A)

theorem henckyStress_eq {D : Nat} (d : Data) (E : Mat ℝ D) : henckyStress d E =
    (d.mu * (1 + soft E)) • E + ((d.lambda + d.mu / 2 - d.mu / 2 * soft E) * trace E) • idm D := by
  rw [henckyStress]
  simp only [tildemu, tildelambda, norm_mul_norm, soft]
  congr 3
  · rw [one_div]
  · rw [mul_comm 2, ← div_div, div_div d.mu, mul_comm _ (2 : ℝ), ← div_div, div_eq_mul_inv (d.mu / 2)]

theorem sqrt_pos {D : Nat} (E : Mat ℝ D) : 0 < Real.sqrt (1 + sqNorm (deviator E)) :=
  Real.sqrt_pos.mpr (by have := sqNorm_nonneg (deviator E); linarith)

theorem soft_deriv {D : Nat} {A : ℝ → Mat ℝ D} {H : Mat ℝ D} {t : ℝ} (h : Velocity A H t) :
    HasDerivAt (fun s => soft (A s)) (-(inner (deviator (A t)) (deviator H) / Real.sqrt (1 + sqNorm (deviator (A t)))) /
      Real.sqrt (1 + sqNorm (deviator (A t))) ^ 2) t := by
  have hp := sqrt_pos (A t)
  have h1 := (((velocity_sqNorm (velocity_deviator h)).const_add 1).sqrt
    (by have := sqNorm_nonneg (deviator (A t)); linarith)).fun_inv hp.ne'
  refine h1.congr_deriv ?_
  field_simp

theorem planar_eq (d : Data) (E : Mat ℝ 2) : henckyStress d E =
    (d.mu * (1 + soft E)) • deviator E + ((d.lambda + d.mu) * trace E) • idm 2 := by
  rw [henckyStress_eq]
  funext i j
  simp only [deviator, Pi.add_apply, Pi.sub_apply, Pi.smul_apply, smul_eq_mul]
  push_cast
  ring

theorem inner_dev {D : Nat} (hD : 0 < D) (A B : Mat ℝ D) : inner (deviator A) (deviator B) = inner (deviator A) B := by
  rw [show deviator B = B - (trace B / D) • idm D from rfl, inner_sub_right, inner_smul_right, inner_idm,
    trace_deviator hD]
  ring

/-- The scalar inequality behind monotonicity. -/
theorem soft_mono {x y c : ℝ} (hx : 0 ≤ x) (hy : 0 ≤ y) (hc : c ^ 2 ≤ x * y) :
    0 ≤ (Real.sqrt (1 + x))⁻¹ * (x - c) + (Real.sqrt (1 + y))⁻¹ * (y - c) := by
  have hX := Real.sqrt_pos.mpr (show 0 < 1 + x by linarith)
  have hY := Real.sqrt_pos.mpr (show 0 < 1 + y by linarith)
  have eX := Real.sq_sqrt (show 0 ≤ 1 + x by linarith)
  have eY := Real.sq_sqrt (show 0 ≤ 1 + y by linarith)
  set X := Real.sqrt (1 + x)
  set Y := Real.sqrt (1 + y)
  have e : X⁻¹ * (x - c) + Y⁻¹ * (y - c) = (Y * (x - c) + X * (y - c)) / (X * Y) := by field_simp
  rw [e]
  refine div_nonneg ?_ (mul_pos hX hY).le
  -- `(X + Y) c <= Y x + X y`
  have hb : 0 ≤ Y * x + X * y := by positivity
  have h1 : ((X + Y) * c) ^ 2 ≤ (Y * x + X * y) ^ 2 := by
    have h2 : ((X + Y) * c) ^ 2 ≤ (X + Y) ^ 2 * (x * y) := by
      rw [mul_pow]
      exact mul_le_mul_of_nonneg_left hc (sq_nonneg _)
    have h3 : (X + Y) ^ 2 * (x * y) ≤ (Y * x + X * y) ^ 2 := by
      have e3 : (Y * x + X * y) ^ 2 - (X + Y) ^ 2 * (x * y) = (x - y) ^ 2 := by
        have : (Y * x + X * y) ^ 2 - (X + Y) ^ 2 * (x * y) =
          Y ^ 2 * x ^ 2 + X ^ 2 * y ^ 2 - (X ^ 2 + Y ^ 2) * (x * y) := by ring
        rw [this, eX, eY]; ring
      have := sq_nonneg (x - y)
      linarith
    linarith
  have := abs_le_of_sq_le_sq h1 hb
  have := (abs_le.mp this).2
  linarith

theorem cauchy {D : Nat} (A B : Mat ℝ D) : inner A B ^ 2 ≤ sqNorm A * sqNorm B := by
  have h : ∀ x : ℝ, 0 ≤ sqNorm A * (x * x) + (2 * inner A B) * x + sqNorm B := by
    intro x
    have := sqNorm_nonneg (x • A + B)
    rw [sqNorm, inner_add_left, inner_add_right, inner_add_right, inner_smul_left, inner_smul_left, inner_smul_right,
      inner_smul_right, inner_comm B A] at this
    unfold sqNorm
    linarith
  have := discrim_le_zero (a := sqNorm A) h
  unfold discrim at this
  linarith

end Verif.Props.Hencky
