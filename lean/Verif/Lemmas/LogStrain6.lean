import Verif.Lemmas.LogStrain5
import Mathlib.Analysis.Complex.ExponentialBounds
/-!
The case of two coinciding largest eigenvalues.
-/
namespace Verif.Lemmas.LogStrain
open Verif.Tensor Verif.TensorConv Verif.Mech Verif.LogStrain Verif.Spec Verif.Lemmas.Mech Verif.Lemmas.Plastic
  Verif.Lemmas.MatFun Finset Filter Topology

/-- A deformation with squared stretches `1, 4, 4`. -/
noncomputable def F144 : Mat ℝ 3 := ![![1, 0, 0], ![0, 2, 0], ![0, 0, 2]]
noncomputable def lam144 : Vec3 := ![1, 4, 4]
/-- A shear in the plane of the equal stretches. -/
noncomputable def shear12 : Mat ℝ 3 := ![![0, 0, 0], ![0, 0, 1], ![0, 1, 0]]

theorem eigen144 : IsEigen (cauchyGreenRight F144) lam144 (idm 3) := by
  refine ⟨fun i j => ?_, fun i j => ?_⟩ <;> fin_cases i <;> fin_cases j <;>
    simp [cauchyGreenRight, mul, tpose, F144, lam144, idm, Fin.sum_univ_three] <;> norm_num

theorem det144 : det F144 = 4 := by
  rw [det, Matrix.det_fin_three]
  simp [F144]
  norm_num

theorem exists_solver144 : ∃ solver, IsSolver solver ∧ evs solver F144 = lam144 ∧ evv solver F144 = idm 3 := by
  obtain ⟨s, hs, h⟩ := exists_solver_at (r := (lam144, idm 3)) eigen144 (by simp [lam144]) (by simp [lam144])
  exact ⟨s, hs, by rw [evs, h], by rw [evv, h]⟩

variable {eps tiny : ℝ}

theorem coef144 (he : 0 ≤ eps) (he1 : eps ≤ 1 / 10) (ht : tiny ≤ 1) :
    coefficient eps tiny lam144 = twoEqual lam144 (ei lam144) (di lam144) (fi lam144) .twoEqual12 := by
  have h01 : ¬ almostEqual eps tiny (lam144 0) (lam144 1) := by
    have e : |(1 : ℝ) - 4| = 3 := by norm_num
    have e' : |(1 : ℝ) + 4| = 5 := by norm_num
    simp only [almostEqual, lam144, Matrix.cons_val_zero, Matrix.cons_val_one, not_or, not_le, not_lt, e, e']
    constructor <;> linarith
  have h12 : almostEqual eps tiny (lam144 1) (lam144 2) := almostEqual_self he _
  unfold coefficient selectCase
  rw [if_neg h01, if_pos h12]

theorem pull_idm (X : Mat ℝ 3) : pull (idm 3) X = X := by
  funext i j
  simp [pull, idm]

theorem conj_idm (X : Mat ℝ 3) : conj (idm 3) X = X := by
  funext i j
  simp [conj, idm]

/-- What the code multiplies with, in the eigenbasis. -/
theorem full144 (he : 0 ≤ eps) (he1 : eps ≤ 1 / 10) (ht : tiny ≤ 1) :
    full lam144 (coefficient eps tiny lam144) 1 2 = 1 / 2 ∧ full lam144 (coefficient eps tiny lam144) 2 1 = 1 / 2 := by
  rw [coef144 he he1 ht]
  simp [full, twoEqual, di, lam144]

theorem scale144 : scaleDiff (lam144 1) (lam144 2) = 1 / 8 ∧ scaleDiff (lam144 2) (lam144 1) = 1 / 8 := by
  have : scaleDiff 4 4 = 1 / 8 := by rw [scale_same (by norm_num)]; norm_num
  exact ⟨this, this⟩

theorem scale2_144 : scaleDiff2 (lam144 1) (lam144 2) (lam144 2) = -1 / 64 := by
  have : scaleDiff2 4 4 4 = -1 / 64 := by rw [scale2_same (by norm_num)]; norm_num
  exact this

theorem cdot144 : cdot F144 shear12 = (4 : ℝ) • shear12 := by
  funext i j
  fin_cases i <;> fin_cases j <;> simp [cdot, mul, tpose, F144, shear12, Fin.sum_univ_three] <;> norm_num

theorem smul_shear (g : Fin 3 → Fin 3 → ℝ) (c : ℝ) (h1 : g 1 2 = c) (h2 : g 2 1 = c) :
    (fun i j => g i j * shear12 i j) = c • shear12 := by
  funext i j
  fin_cases i <;> fin_cases j <;> simp [shear12, h1, h2]

/-- What the code does to shears. -/
theorem code_shear (he : 0 ≤ eps) (he1 : eps ≤ 1 / 10) (ht : tiny ≤ 1) (c : ℝ) :
    conj (idm 3) (fun i j => full lam144 (coefficient eps tiny lam144) i j * pull (idm 3) (c • shear12) i j) =
      (c / 2) • shear12 := by
  obtain ⟨h1, h2⟩ := full144 he he1 ht
  rw [conj_idm, pull_idm]
  have : (fun i j => full lam144 (coefficient eps tiny lam144) i j * (c • shear12) i j) =
      fun i j => (full lam144 (coefficient eps tiny lam144) i j * c) * shear12 i j := by
    funext i j
    simp only [Pi.smul_apply, smul_eq_mul]
    ring
  rw [this]
  exact smul_shear _ _ (by rw [h1]; ring) (by rw [h2]; ring)

theorem dE_shear (c : ℝ) : dE lam144 (idm 3) (c • shear12) = (c / 8) • shear12 := by
  obtain ⟨h1, h2⟩ := scale144
  rw [dE, conj_idm, pull_idm]
  have : (fun i j => scaleDiff (lam144 i) (lam144 j) * (c • shear12) i j) =
      fun i j => (scaleDiff (lam144 i) (lam144 j) * c) * shear12 i j := by
    funext i j
    simp only [Pi.smul_apply, smul_eq_mul]
    ring
  rw [this]
  exact smul_shear _ _ (by rw [h1]; ring) (by rw [h2]; ring)

theorem ddot_shear (c : ℝ) : ddot shear12 (c • shear12) = 2 * c := by
  simp [ddot, shear12, Fin.sum_univ_three]
  ring

/-! ### The tangent -/

theorem tl_shear (he : 0 ≤ eps) (he1 : eps ≤ 1 / 10) (ht : tiny ≤ 1) (a b c : ℝ) :
    tmProd (tlPK2 eps tiny (fun i j => if i = j then ![a, b, b] i else 0) lam144 (idm 3)) (c • shear12) =
      (-2 * b * c) • shear12 := by
  have hz : pull (idm 3) (fun i j => if i = j then ![a, b, b] i else 0) =
      fun i j => if i = j then ![a, b, b] i else 0 := pull_idm _
  have hx : tpose (c • shear12) + c • shear12 = (2 * c) • shear12 := by
    funext i j
    fin_cases i <;> fin_cases j <;> simp [shear12, tpose] <;> ring
  rw [tlPK2, coef144 he he1 ht]
  simp only [zeta_eq, hz, tmProd_sum, tmProd_add, tmProd_smul, tmProd_ite, tmProd_kronecker, inner_Mij', hx, pull_idm]
  funext i j
  simp only [Fin.sum_univ_three, Pi.add_apply, Pi.smul_apply, smul_eq_mul, twoEqual, fi, lam144]
  fin_cases i <;> fin_cases j <;> simp [shear12, Mij, Ni, idm] <;> ring

end Verif.Lemmas.LogStrain
