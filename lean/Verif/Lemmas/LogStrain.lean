import Verif.Model.LogStrain
import Verif.Spec.LogStrain
import Verif.Lemmas.MatFun2
import Verif.Lemmas.Hyper
import Verif.Props.Tensor
import Verif.Props.TensorConv
import Mathlib.Analysis.SpecialFunctions.Complex.Analytic
/-!
The projector of the logarithmic strain in the eigenbasis.
-/
namespace Verif.Lemmas.LogStrain
open Verif.Tensor Verif.TensorConv Verif.Mech Verif.LogStrain Verif.Spec Verif.Lemmas.Mech Verif.Lemmas.Plastic
  Verif.Lemmas.MatFun Finset Filter Topology

/-- `V X V^T`. -/
noncomputable def conj (V X : Mat ℝ 3) : Mat ℝ 3 := fun a b => ∑ i, ∑ j, X i j * V a i * V b j
/-- `V^T X V`. -/
noncomputable def pull (V X : Mat ℝ 3) : Mat ℝ 3 := fun i j => ∑ a, ∑ b, V a i * X a b * V b j

theorem of_conj (V X : Mat ℝ 3) : Matrix.of (conj V X) = Matrix.of V * Matrix.of X * (Matrix.of V).transpose := by
  ext a b
  simp only [conj, Matrix.of_apply, Matrix.mul_apply, Matrix.transpose_apply, sum_mul]
  rw [sum_comm]
  exact sum_congr rfl fun i _ => sum_congr rfl fun j _ => by ring

theorem of_pull (V X : Mat ℝ 3) : Matrix.of (pull V X) = (Matrix.of V).transpose * Matrix.of X * Matrix.of V := by
  ext a b
  simp only [pull, Matrix.of_apply, Matrix.mul_apply, Matrix.transpose_apply, sum_mul]
  rw [sum_comm]

theorem of_elog (lam : Vec3) (V : Mat ℝ 3) : Matrix.of (elog lam V) = fcn henckyScale lam (Matrix.of V) := by
  rw [elog, of_mul, of_mul, of_tpose, fcn]
  congr 2

theorem eig_of {C : Mat ℝ 3} {lam : Vec3} {V : Mat ℝ 3} (h : IsEigen C lam V) :
    Eig (Matrix.of C) lam (Matrix.of V) := by
  refine ⟨?_, ?_⟩
  · ext i j
    rw [Matrix.mul_apply, Matrix.one_apply]
    exact h.orth i j
  · ext a i
    rw [Matrix.mul_apply, Matrix.mul_diagonal, mul_comm]
    exact h.eig a i

theorem velocity_iff {A : ℝ → Mat ℝ 3} {H : Mat ℝ 3} {t : ℝ} : Velocity A H t ↔
    Tendsto (fun s => (s - t)⁻¹ • (Matrix.of (A s) - Matrix.of (A t))) (𝓝[≠] t) (𝓝 (Matrix.of H)) := by
  constructor
  · intro h
    refine tendsto_pi_nhds.mpr fun i => tendsto_pi_nhds.mpr fun j => ?_
    exact hasDerivAt_iff_tendsto_slope.mp (h i j)
  · intro h i j
    exact hasDerivAt_iff_tendsto_slope.mpr (tendsto_pi_nhds.mp (tendsto_pi_nhds.mp h i) j)

theorem velocity_tendsto {A : ℝ → Mat ℝ 3} {H : Mat ℝ 3} {t : ℝ} (h : Velocity A H t) :
    Tendsto (fun s => Matrix.of (A s)) (𝓝[≠] t) (𝓝 (Matrix.of (A t))) :=
  (tendsto_pi_nhds.mpr fun i => tendsto_pi_nhds.mpr fun j => (h i j).continuousAt.tendsto).mono_left nhdsWithin_le_nhds

theorem velocity_cg {A : ℝ → Mat ℝ 3} {H : Mat ℝ 3} {t : ℝ} (h : Velocity A H t) :
    Velocity (fun s => cauchyGreenRight (A s)) (mul (tpose H) (A t) + mul (tpose (A t)) H) t :=
  Hyper.velocity_mul (fun i j => h j i) h

theorem symm_cg (F : Mat ℝ 3) : Symm (cauchyGreenRight F) := fun i j => by
  simp only [cauchyGreenRight, mul, tpose, mul_comm]

/-! ### The eigenvalues are positive -/

theorem eigen_pos {F : Mat ℝ 3} (hF : det F ≠ 0) {lam : Vec3} {V : Mat ℝ 3} (h : IsEigen (cauchyGreenRight F) lam V)
    (i : Fin 3) : 0 < lam i := by
  have e1 : lam i = ∑ k, (∑ b, F k b * V b i) * (∑ b, F k b * V b i) := by
    have : ∑ a, V a i * ∑ b, cauchyGreenRight F a b * V b i = lam i := by
      have : ∀ a, V a i * ∑ b, cauchyGreenRight F a b * V b i = lam i * (V a i * V a i) := fun a => by rw [h.eig]; ring
      rw [sum_congr rfl fun a _ => this a, ← mul_sum, h.orth, if_pos rfl, mul_one]
    rw [← this]
    simp only [cauchyGreenRight, mul, tpose, Fin.sum_univ_three]
    ring
  have h0 : 0 ≤ lam i := e1 ▸ sum_nonneg fun k _ => mul_self_nonneg _
  refine lt_of_le_of_ne h0 fun hz => ?_
  rw [← hz] at e1
  have hz2 : ∀ k, ∑ b, F k b * V b i = 0 := fun k =>
    mul_self_eq_zero.mp ((sum_eq_zero_iff_of_nonneg fun k _ => mul_self_nonneg _).mp e1.symm k (mem_univ k))
  have hv : (fun b => V b i) = 0 := Matrix.eq_zero_of_mulVec_eq_zero hF (funext fun k => by
    simpa [Matrix.mulVec, dotProduct] using hz2 k)
  have := h.orth i i
  rw [if_pos rfl] at this
  simp only [fun a => congrFun hv a, Pi.zero_apply, mul_zero, sum_const_zero] at this
  exact zero_ne_one this

theorem analytic_scale {x : ℝ} (h : 0 < x) : AnalyticAt ℝ henckyScale x := by
  unfold henckyScale
  exact (analyticAt_log h).div_const

theorem deriv_scale {x : ℝ} (h : 0 < x) : deriv henckyScale x = 1 / x / 2 := by
  have : HasDerivAt henckyScale (x⁻¹ / 2) x := (Real.hasDerivAt_log h.ne').div_const 2
  rw [this.deriv, one_div]

theorem deriv_dslope_same {f : ℝ → ℝ} {x : ℝ} (h : AnalyticAt ℝ f x) :
    deriv (dslope f x) x = deriv (deriv f) x / 2 := by
  have hg : AnalyticAt ℝ (dslope f x) x := analyticAt_dslope h h
  have e : deriv f =ᶠ[𝓝 x] fun y => dslope f x y + (y - x) * deriv (dslope f x) y := by
    filter_upwards [hg.eventually_analyticAt] with y hy
    have e1 : f = fun y => f x + (y - x) * dslope f x y := by
      funext z
      have := sub_smul_dslope f x z
      rw [smul_eq_mul] at this
      linarith
    have e2 : HasDerivAt (fun y => f x + (y - x) * dslope f x y) (1 * dslope f x y + (y - x) * deriv (dslope f x) y) y :=
      (((hasDerivAt_id' y).sub_const x).fun_mul hy.differentiableAt.hasDerivAt).const_add (f x)
    rw [← e1] at e2
    rw [e2.deriv, one_mul]
  have e3 : HasDerivAt (fun y => dslope f x y + (y - x) * deriv (dslope f x) y)
      (deriv (dslope f x) x + (1 * deriv (dslope f x) x + (x - x) * deriv (deriv (dslope f x)) x)) x :=
    hg.differentiableAt.hasDerivAt.fun_add
      (((hasDerivAt_id' x).sub_const x).fun_mul hg.deriv.differentiableAt.hasDerivAt)
  rw [e.deriv_eq, e3.deriv]
  ring

theorem deriv2_scale {x : ℝ} (h : 0 < x) : deriv (dslope henckyScale x) x = -2 / (x * x) / 8 := by
  have e : deriv henckyScale =ᶠ[𝓝 x] fun y => y⁻¹ / 2 := by
    filter_upwards [eventually_gt_nhds h] with y hy
    rw [deriv_scale hy, one_div]
  have e2 : HasDerivAt (fun y : ℝ => y⁻¹ / 2) (-(x ^ 2)⁻¹ / 2) x := (hasDerivAt_inv h.ne').div_const 2
  rw [deriv_dslope_same (analytic_scale h), e.deriv_eq, e2.deriv]
  field_simp
  norm_num

/-! ### The coefficients -/

/-- Eigenvalues that compare almost equal are equal. -/
def Separated (eps tiny : ℝ) (lam : Vec3) : Prop := ∀ i j, almostEqual eps tiny (lam i) (lam j) → lam i = lam j

theorem almostEqual_self {eps tiny : ℝ} (he : 0 ≤ eps) (x : ℝ) : almostEqual eps tiny x x := by
  left
  rw [sub_self, abs_zero]
  positivity

theorem scale_ne {x y : ℝ} (h : y ≠ x) : scaleDiff x y = (Real.log y / 2 - Real.log x / 2) / (y - x) := by
  rw [scaleDiff, dslope_of_ne _ h, slope_def_field, henckyScale, henckyScale]

theorem scale_same {x : ℝ} (h : 0 < x) : scaleDiff x x = 1 / x / 2 := by rw [scaleDiff, dslope_same, deriv_scale h]

theorem quot_eq {lam : Vec3} {i j : Fin 3} (h : lam i ≠ lam j) : quot lam (ei lam) i j = scaleDiff (lam i) (lam j) := by
  have h1 := sub_ne_zero.mpr h
  have h2 := sub_ne_zero.mpr (Ne.symm h)
  rw [scale_ne (Ne.symm h), quot, ei, ei]
  field_simp
  ring

theorem scale2_same {x : ℝ} (h : 0 < x) : scaleDiff2 x x x = -2 / (x * x) / 8 := by
  rw [scaleDiff2, dslope_same, deriv2_scale h]

theorem scale2_ne {x y : ℝ} (h : x ≠ y) (hy : 0 < y) : scaleDiff2 x y y = (scaleDiff x y - 1 / y / 2) / (x - y) := by
  have h1 := sub_ne_zero.mpr h
  have h2 := sub_ne_zero.mpr (Ne.symm h)
  rw [scaleDiff2, dslope_same, deriv_slope (Ne.symm h) (analytic_scale hy).differentiableAt, deriv_scale hy, scaleDiff]
  field_simp
  ring

theorem scaleDiff_comm (x y : ℝ) : scaleDiff x y = scaleDiff y x := dslope_comm _ _ _

theorem xiQuot_eq {lam : Vec3} (hp : ∀ i, 0 < lam i) {a b i j : Fin 3} (h : lam i ≠ lam j)
    (hab : (a = i ∧ b = j) ∨ (a = j ∧ b = i)) :
    xiQuot lam (ei lam) (di lam) a b i j = scaleDiff2 (lam i) (lam j) (lam j) := by
  rw [scale2_ne h (hp j), xiQuot, di]
  rcases hab with ⟨rfl, rfl⟩ | ⟨rfl, rfl⟩
  · rw [quot_eq h]
  · rw [quot_eq (Ne.symm h), scaleDiff_comm]

/-- The coefficients are divided differences. -/
structure CoefSpec (lam : Vec3) (c : Coef) : Prop where
  theta : ∀ i j, i ≠ j → c.theta i j = scaleDiff (lam i) (lam j)
  xi : ∀ i j, i ≠ j → c.xi i j = scaleDiff2 (lam i) (lam j) (lam j)
  eta : c.eta = scaleDiff2 (lam 0) (lam 1) (lam 2)

theorem scale2_rot {x y z : ℝ} (hx : 0 < x) (hy : 0 < y) : scaleDiff2 x y z = scaleDiff2 y x z :=
  dd2_swap (analytic_scale hx).differentiableAt (analytic_scale hy).differentiableAt
theorem scale2_symm (x y z : ℝ) : scaleDiff2 x y z = scaleDiff2 x z y := dd2_symm _ _ _ _

theorem coef_threeDiff {lam : Vec3} (hp : ∀ i, 0 < lam i) (h01 : lam 0 ≠ lam 1) (h12 : lam 1 ≠ lam 2)
    (h02 : lam 0 ≠ lam 2) : CoefSpec lam (threeDiff lam (ei lam) (di lam)) := by
  have hne : ∀ i j : Fin 3, i ≠ j → lam i ≠ lam j := by
    intro i j h
    fin_cases i <;> fin_cases j <;> first | exact absurd rfl h | assumption | exact Ne.symm (by assumption)
  refine ⟨fun i j h => ?_, fun i j h => ?_, ?_⟩
  · show (if j = i then 0 else quot lam (ei lam) i j) = _
    rw [if_neg (Ne.symm h), quot_eq (hne i j h)]
  · show (if j = i then 0 else xiQuot lam (ei lam) (di lam) i j i j) = _
    rw [if_neg (Ne.symm h), xiQuot_eq hp (hne i j h) (Or.inl ⟨rfl, rfl⟩)]
  · have d01 := sub_ne_zero.mpr h01
    have d12 := sub_ne_zero.mpr h12
    have d02 := sub_ne_zero.mpr h02
    have d10 := sub_ne_zero.mpr (Ne.symm h01)
    have d21 := sub_ne_zero.mpr (Ne.symm h12)
    have d20 := sub_ne_zero.mpr (Ne.symm h02)
    rw [scaleDiff2, dslope_of_ne _ (Ne.symm h12), slope_def_field, dslope_of_ne _ (Ne.symm h02),
      dslope_of_ne _ (Ne.symm h01), slope_def_field, slope_def_field]
    simp [threeDiff, Fin.sum_univ_three, henckyScale, ei]
    field_simp
    ring

theorem coef_spec {eps tiny : ℝ} (he : 0 ≤ eps) {lam : Vec3} (hp : ∀ i, 0 < lam i) (h01 : lam 0 ≤ lam 1)
    (h12 : lam 1 ≤ lam 2) (hs : Separated eps tiny lam) (hr : lam 1 = lam 2 → lam 0 = lam 1) :
    CoefSpec lam (coefficient eps tiny lam) := by
  have hae : ∀ i j, almostEqual eps tiny (lam i) (lam j) ↔ lam i = lam j := fun i j =>
    ⟨hs i j, fun h => h ▸ almostEqual_self he _⟩
  unfold coefficient selectCase
  simp only [hae]
  by_cases e01 : lam 0 = lam 1
  · by_cases e12 : lam 1 = lam 2
    · rw [if_pos e01, if_pos e12]
      have ea : ∀ i, lam i = lam 0 := by
        intro i
        fin_cases i
        · rfl
        · exact e01.symm
        · exact (e01.trans e12).symm
      refine ⟨fun i j h => ?_, fun i j h => ?_, ?_⟩
      · show (if j = i then 0 else di lam 0 / 2) = _
        rw [if_neg (Ne.symm h), ea i, ea j, scale_same (hp 0), di]
      · show (if j = i then 0 else fi lam 0 / 8) = _
        rw [if_neg (Ne.symm h), ea i, ea j, scale2_same (hp 0), fi]
      · show fi lam 0 / 8 = _
        rw [ea 1, ea 2, scale2_same (hp 0), fi]
    · rw [if_pos e01, if_neg e12]
      have e02 : lam 0 ≠ lam 2 := fun h => e12 (e01 ▸ h)
      have k1 : di lam 0 / 2 = scaleDiff (lam 0) (lam 1) := by rw [← e01, scale_same (hp 0), di]
      have k2 : fi lam 0 / 8 = scaleDiff2 (lam 0) (lam 1) (lam 1) := by rw [← e01, scale2_same (hp 0), fi]
      refine ⟨fun i j h => ?_, fun i j h => ?_, ?_⟩
      · fin_cases i <;> fin_cases j <;> first | exact absurd rfl h | skip
        · exact k1
        · exact quot_eq e02
        · exact k1.trans (scaleDiff_comm _ _)
        · exact quot_eq e12
        · exact (quot_eq e02).trans (scaleDiff_comm _ _)
        · exact (quot_eq e12).trans (scaleDiff_comm _ _)
      · fin_cases i <;> fin_cases j <;> first | exact absurd rfl h | skip
        · exact k2
        · exact xiQuot_eq hp e02 (Or.inl ⟨rfl, rfl⟩)
        · exact k2.trans (by show scaleDiff2 (lam 0) (lam 1) (lam 1) = scaleDiff2 (lam 1) (lam 0) (lam 0); rw [e01])
        · exact xiQuot_eq hp e12 (Or.inl ⟨rfl, rfl⟩)
        · exact xiQuot_eq hp (Ne.symm e02) (Or.inr ⟨rfl, rfl⟩)
        · exact xiQuot_eq hp (Ne.symm e12) (Or.inr ⟨rfl, rfl⟩)
      · show xiQuot lam (ei lam) (di lam) 0 2 2 0 = _
        rw [xiQuot_eq hp (Ne.symm e02) (Or.inr ⟨rfl, rfl⟩), ← e01, scale2_rot (hp 2) (hp 0), scale2_symm]
  · by_cases e12 : lam 1 = lam 2
    · exact absurd (hr e12) e01
    · have e02 : lam 0 ≠ lam 2 := fun h => e12 (le_antisymm h12 (h ▸ h01))
      rw [if_neg e01, if_neg e12, if_neg e02]
      exact coef_threeDiff hp e01 e12 e02

end Verif.Lemmas.LogStrain
