import Verif.Lemmas.LogStrain4
import Mathlib.Analysis.Matrix.Spectrum
import Mathlib.Analysis.Normed.Algebra.MatrixExponential
import Mathlib.Analysis.SpecialFunctions.Exponential
import Mathlib.Data.Fin.Tuple.Sort
/-!
Existence of eigensolvers, the exponential of the strain, and isotropic laws.
-/
namespace Verif.Lemmas.LogStrain
open Verif.Tensor Verif.TensorConv Verif.Mech Verif.LogStrain Verif.Spec Verif.Lemmas.Mech Verif.Lemmas.Plastic
  Verif.Lemmas.MatFun Finset Filter Topology

variable {solver : Mat ℝ 3 → Vec3 × Mat ℝ 3}

/-! ### Existence -/

theorem exists_eigen {C : Mat ℝ 3} (h : Symm C) :
    ∃ r : Vec3 × Mat ℝ 3, IsEigen C r.1 r.2 ∧ r.1 0 ≤ r.1 1 ∧ r.1 1 ≤ r.1 2 := by
  have hA : (Matrix.of C).IsHermitian := by
    ext i j
    rw [Matrix.conjTranspose_apply, star_trivial]
    exact h j i
  set sg := Tuple.sort hA.eigenvalues
  refine ⟨(fun i => hA.eigenvalues (sg i), fun a i => hA.eigenvectorBasis (sg i) a), ⟨fun i j => ?_, fun a i => ?_⟩,
    Tuple.monotone_sort hA.eigenvalues (by decide), Tuple.monotone_sort hA.eigenvalues (by decide)⟩
  · have := orthonormal_iff_ite.mp hA.eigenvectorBasis.orthonormal (sg j) (sg i)
    rw [PiLp.inner_apply] at this
    simp only [RCLike.inner_apply, conj_trivial, sg.injective.eq_iff, eq_comm (a := j)] at this
    exact this
  · have := congrFun (hA.mulVec_eigenvectorBasis (sg i)) a
    exact this

theorem exists_solver : ∃ solver, IsSolver solver := by
  classical
  refine ⟨fun C => if h : Symm C then (exists_eigen h).choose else 0, ⟨fun C h => ?_, fun C h => ?_⟩⟩
  · simp only [h, dif_pos]
    exact (exists_eigen h).choose_spec.1
  · simp only [h, dif_pos]
    exact (exists_eigen h).choose_spec.2

/-- A solver may return any sorted eigendecomposition at a given matrix. -/
theorem exists_solver_at {C : Mat ℝ 3} {r : Vec3 × Mat ℝ 3} (h : IsEigen C r.1 r.2) (h1 : r.1 0 ≤ r.1 1)
    (h2 : r.1 1 ≤ r.1 2) : ∃ solver, IsSolver solver ∧ solver C = r := by
  classical
  obtain ⟨s, hs⟩ := exists_solver
  refine ⟨Function.update s C r, ⟨fun B hB => ?_, fun B hB => ?_⟩, Function.update_self _ _ _⟩
  · by_cases e : B = C
    · subst e; rw [Function.update_self]; exact h
    · rw [Function.update_of_ne e]; exact hs.eig B hB
  · by_cases e : B = C
    · subst e; rw [Function.update_self]; exact ⟨h1, h2⟩
    · rw [Function.update_of_ne e]; exact hs.sorted B hB

/-! ### The exponential -/

theorem exp_strain (hs : IsSolver solver) {F : Mat ℝ 3} (h0 : det F ≠ 0) :
    NormedSpace.exp ((2 : ℝ) • Matrix.of (strain solver F)) = Matrix.of (cauchyGreenRight F) := by
  have hE := eig_of (hs.eig _ (symm_cg F))
  have hp := evs_pos hs h0
  have hu : IsUnit (Matrix.of (evv solver F)) := IsUnit.of_mul_eq_one _ hE.orth'
  have hi : (Matrix.of (evv solver F))⁻¹ = (Matrix.of (evv solver F)).transpose := Matrix.inv_eq_left_inv hE.orth
  conv_rhs => rw [hE.eq]
  rw [strain, of_elog, fcn]
  have e : (2 : ℝ) • (Matrix.of (evv solver F) * Matrix.diagonal (fun i => henckyScale (evs solver F i)) *
      (Matrix.of (evv solver F)).transpose) = Matrix.of (evv solver F) *
      Matrix.diagonal (fun i => Real.log (evs solver F i)) * (Matrix.of (evv solver F))⁻¹ := by
    rw [hi, ← Matrix.smul_mul, ← Matrix.mul_smul, ← Matrix.diagonal_smul]
    congr 3
    funext i
    simp only [Pi.smul_apply, henckyScale, smul_eq_mul]
    ring
  rw [e, Matrix.exp_conj _ _ hu, Matrix.exp_diagonal, hi]
  have e2 : NormedSpace.exp (fun i => Real.log (evs solver F i)) = evs solver F := by
    funext i
    rw [Pi.coe_exp, ← Real.exp_eq_exp_ℝ, Real.exp_log (hp i)]
  rw [e2]
  rfl

/-! ### Isotropic laws -/

theorem of_rotated (Q E : Mat ℝ 3) : Matrix.of (rotated Q E) = Matrix.of Q * Matrix.of E * (Matrix.of Q).transpose := by
  ext i j
  simp only [rotated, Matrix.of_apply, Matrix.mul_apply, Matrix.transpose_apply, sum_mul]
  rw [sum_comm]

theorem pull_diag {C : Mat ℝ 3} {lam : Vec3} {V : Mat ℝ 3} (h : IsEigen C lam V) {T : Mat ℝ 3 → Mat ℝ 3}
    (hT : IsIsotropic T) {i j : Fin 3} (hij : i ≠ j) : pull V (T (elog lam V)) i j = 0 := by
  set v := Matrix.of V with hv
  have hE := eig_of h
  set d : Fin 3 → ℝ := fun k => if k = i then -1 else 1 with hd
  set q := v * Matrix.diagonal d * v.transpose with hq
  have hdd : Matrix.diagonal d * Matrix.diagonal d = 1 := by
    rw [Matrix.diagonal_mul_diagonal, ← Matrix.diagonal_one]
    congr 1
    funext k
    simp only [hd]
    split <;> norm_num
  have hqt : q.transpose = q := by
    rw [hq, Matrix.transpose_mul, Matrix.transpose_mul, Matrix.transpose_transpose, Matrix.diagonal_transpose,
      Matrix.mul_assoc]
  have key : ∀ D : Matrix (Fin 3) (Fin 3) ℝ, q * (v * D * v.transpose) * q =
      v * (Matrix.diagonal d * D * Matrix.diagonal d) * v.transpose := fun D => by
    have e1 : q * (v * D * v.transpose) = v * (Matrix.diagonal d * D) * v.transpose := by
      rw [hq]
      calc _ = v * Matrix.diagonal d * (v.transpose * v) * D * v.transpose := by simp only [Matrix.mul_assoc]
        _ = _ := by rw [hE.orth]; simp only [Matrix.mul_assoc, Matrix.one_mul]
    rw [e1, hq]
    calc _ = v * (Matrix.diagonal d * D) * (v.transpose * v) * Matrix.diagonal d * v.transpose := by
          simp only [Matrix.mul_assoc]
      _ = _ := by rw [hE.orth]; simp only [Matrix.mul_assoc, Matrix.one_mul]
  have hqq : q * q = 1 := by
    have := key 1
    rw [Matrix.mul_one, hE.orth', Matrix.mul_one, Matrix.mul_one, hdd, Matrix.mul_one, hE.orth'] at this
    exact this
  have hrot : rotated (fun a b => q a b) (elog lam V) = elog lam V := by
    apply Matrix.of.injective
    rw [of_rotated]
    show q * _ * q.transpose = _
    rw [hqt, of_elog, fcn, key]
    congr 2
    rw [Matrix.diagonal_mul_diagonal, Matrix.diagonal_mul_diagonal]
    congr 1
    funext k
    simp only [hd]
    split <;> ring
  have hEs : Symm (elog lam V) := by
    intro a b
    simp only [elog, mul, tpose, Fin.sum_univ_three]
    simp
    ring
  have hTr := hT (fun a b => q a b) (fun a b => by
    have := congrFun (congrFun hqq a) b
    rw [Matrix.mul_apply, Matrix.one_apply] at this
    rw [← this]
    refine sum_congr rfl fun k _ => ?_
    rw [show q k a = q a k from congrFun (congrFun hqt a) k]) (elog lam V) hEs
  rw [hrot] at hTr
  have hm : Matrix.of (T (elog lam V)) = q * Matrix.of (T (elog lam V)) * q := by
    conv_lhs => rw [hTr]
    rw [of_rotated]
    show q * _ * q.transpose = _
    rw [hqt]
  have hp : Matrix.of (pull V (T (elog lam V))) =
      Matrix.diagonal d * Matrix.of (pull V (T (elog lam V))) * Matrix.diagonal d := by
    conv_lhs => rw [of_pull, hm]
    rw [of_pull, hq, ← hv]
    calc _ = (v.transpose * v) * Matrix.diagonal d * v.transpose * Matrix.of (T (elog lam V)) * v * Matrix.diagonal d *
          (v.transpose * v) := by simp only [Matrix.mul_assoc]
      _ = _ := by rw [hE.orth]; simp only [Matrix.mul_assoc, Matrix.one_mul, Matrix.mul_one]
  have := congrFun (congrFun hp i) j
  rw [Matrix.mul_diagonal, Matrix.diagonal_mul] at this
  simp only [hd, if_neg (Ne.symm hij), Matrix.of_apply, if_pos] at this
  linarith

theorem mtProd_projector_diag {eps tiny : ℝ} {lam : Vec3} (hp : ∀ i, 0 < lam i) {V F T : Mat ℝ 3} (hT : Symm T)
    (hd : ∀ i j, i ≠ j → pull V T i j = 0) : mtProd T (projector eps tiny F lam V) = pk1 lam V F T := by
  refine ddot_left fun H => ?_
  rw [ddot_mtProd, ddot_pk1 hT, tmProd_projector, dE, ddot_conj, ddot_conj, ddot, ddot]
  refine sum_congr rfl fun i _ => sum_congr rfl fun j _ => ?_
  by_cases e : i = j
  · subst e
    rw [full, if_pos rfl, scale_same (hp i), di]
  · rw [hd i j e, zero_mul, zero_mul]

/-! ### Objectivity -/

theorem cdot_rot {Q : Mat ℝ 3} (F H : Mat ℝ 3) : cdot (mul Q F) H = cdot F (mul (tpose Q) H) := by
  simp only [cdot, tpose_mul, tpose_tpose, Lemmas.Mech.mul_assoc]

theorem mtProd_rot (eps tiny : ℝ) (lam : Vec3) (V F T Q : Mat ℝ 3) :
    mtProd T (projector eps tiny (mul Q F) lam V) = mul Q (mtProd T (projector eps tiny F lam V)) := by
  refine ddot_left fun H => ?_
  rw [ddot_mtProd, tmProd_projector, cdot_rot, ← tmProd_projector, ← ddot_mtProd]
  simp only [ddot, mul, tpose, Fin.sum_univ_three]
  ring

theorem cg_rot {Q : Mat ℝ 3} (h : mul (tpose Q) Q = idm 3) (F : Mat ℝ 3) :
    cauchyGreenRight (mul Q F) = cauchyGreenRight F := by
  rw [cauchyGreenRight, tpose_mul, Lemmas.Mech.mul_assoc, ← Lemmas.Mech.mul_assoc (tpose Q), h, idm_mul]
  rfl

end Verif.Lemmas.LogStrain
