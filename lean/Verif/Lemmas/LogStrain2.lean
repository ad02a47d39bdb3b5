import Verif.Lemmas.LogStrain
/-!
The projector of the logarithmic strain is its derivative; its second derivative.
-/
namespace Verif.Lemmas.LogStrain
open Verif.Tensor Verif.TensorConv Verif.Mech Verif.LogStrain Verif.Spec Verif.Lemmas.Mech Verif.Lemmas.Plastic
  Verif.Lemmas.MatFun Finset Filter Topology

theorem tmProd_sum {ι : Type} (u : Finset ι) (f : ι → Tens ℝ 3) (M : Mat ℝ 3) :
    tmProd (∑ i ∈ u, f i) M = ∑ i ∈ u, tmProd (f i) M := by
  classical
  induction u using Finset.induction_on with
  | empty => rw [sum_empty, sum_empty, tmProd_zero]
  | insert a u ha ih => rw [sum_insert ha, sum_insert ha, tmProd_add, ih]

theorem tmProd_ite {p : Prop} [Decidable p] (A : Tens ℝ 3) (M : Mat ℝ 3) :
    tmProd (if p then A else 0) M = if p then tmProd A M else 0 := by
  split
  · rfl
  · exact tmProd_zero M

/-- `F^T H + H^T F`. -/
noncomputable def cdot (F H : Mat ℝ 3) : Mat ℝ 3 := mul (tpose H) F + mul (tpose F) H

theorem inner_Mij (F V H : Mat ℝ 3) (i j : Fin 3) :
    inner (Mij (Ni V) (ni F (Ni V)) i j) H = pull V (cdot F H) i j := by
  simp only [Tensor.inner, Mij, Ni, ni, pull, cdot, mul, tpose, Pi.add_apply, Fin.sum_univ_three]
  ring

theorem ni_idm (N : Fin 3 → Vec3) : ni (idm 3) N = N := by
  funext i a
  simp [ni, idm]

theorem cdot_idm (X : Mat ℝ 3) : cdot (idm 3) X = tpose X + X := by
  rw [cdot, mul_idm, tpose_idm, idm_mul]

theorem inner_Mij' (V X : Mat ℝ 3) (i j : Fin 3) : inner (Mij (Ni V) (Ni V) i j) X = pull V (tpose X + X) i j := by
  have := inner_Mij (idm 3) V X i j
  rwa [ni_idm, cdot_idm] at this

/-- The coefficients with the diagonal. -/
noncomputable def full (lam : Vec3) (c : Coef) (i j : Fin 3) : ℝ := if j = i then di lam i / 2 else c.theta i j

theorem full_spec {lam : Vec3} (hp : ∀ i, 0 < lam i) {c : Coef} (h : CoefSpec lam c) (i j : Fin 3) :
    full lam c i j = scaleDiff (lam i) (lam j) := by
  unfold full
  split
  · next e => rw [e, scale_same (hp i), di]
  · next e => exact h.theta i j (Ne.symm e)

theorem tmProd_projector (eps tiny : ℝ) (F V H : Mat ℝ 3) (lam : Vec3) :
    tmProd (projector eps tiny F lam V) H =
      conj V (fun i j => full lam (coefficient eps tiny lam) i j * pull V (cdot F H) i j) := by
  rw [projector, tmProd_sum]
  funext a b
  rw [Finset.sum_apply, Finset.sum_apply, conj]
  refine sum_congr rfl fun i _ => ?_
  rw [tmProd_add, tmProd_sum, tmProd_kronecker, inner_Mij]
  simp only [tmProd_ite, tmProd_kronecker, inner_Mij, full]
  have : ∀ j, (if j ≠ i then pull V (cdot F H) i j • (coefficient eps tiny lam).theta i j • outer (Ni V i) (Ni V j) else 0 :
      Mat ℝ 3) a b = if j ≠ i then pull V (cdot F H) i j * ((coefficient eps tiny lam).theta i j * (V a i * V b j)) else 0 := by
    intro j
    split <;> rfl
  rw [Pi.add_apply, Pi.add_apply, Finset.sum_apply, Finset.sum_apply]
  simp only [this]
  rw [← add_sum_erase univ _ (mem_univ i), ← add_sum_erase univ _ (mem_univ i)]
  simp only [ne_eq, not_true_eq_false, if_false, if_true, zero_add]
  have e : ∑ j ∈ univ.erase i, (if ¬j = i then
      pull V (cdot F H) i j * ((coefficient eps tiny lam).theta i j * (V a i * V b j)) else 0) =
      ∑ j ∈ univ.erase i, (if j = i then di lam i / 2 else (coefficient eps tiny lam).theta i j) *
        pull V (cdot F H) i j * V a i * V b j := by
    refine sum_congr rfl fun j hj => ?_
    have hne : ¬ j = i := (mem_erase.mp hj).1
    rw [if_pos hne, if_neg hne]
    ring
  rw [e]
  congr 1
  simp only [Pi.smul_apply, smul_eq_mul, outer, Ni]
  ring

theorem projectorPK2_eq (eps tiny : ℝ) (lam : Vec3) (V : Mat ℝ 3) :
    projectorPK2 eps tiny lam V = projector eps tiny (idm 3) lam V := by
  have hk : ∀ (c : ℝ) (A B : Mat ℝ 3), kronecker (c • A) B = c • kronecker A B := by
    intro c A B
    refine ext_get fun t => ?_
    rw [get_kronecker]
    show _ = c * get (kronecker A B) t
    rw [get_kronecker, Pi.smul_apply, Pi.smul_apply, smul_eq_mul]
    ring
  rw [projectorPK2, projector]
  simp only [ni_idm, hk]

theorem ddot_mtProd (T H : Mat ℝ 3) (P : Tens ℝ 3) : ddot (mtProd T P) H = ddot T (tmProd P H) := by
  have e : ∀ k l, tmProd P H k l = ∑ i, ∑ j, get P ⟨k, l, i, j⟩ * H i j := fun k l => rfl
  simp only [ddot, mtProd, e, Fin.sum_univ_three]
  ring

theorem ddot_conj (V T X : Mat ℝ 3) : ddot T (conj V X) = ddot (pull V T) X := by
  simp only [ddot, conj, pull, Fin.sum_univ_three]
  ring

theorem ddot_left {A B : Mat ℝ 3} (h : ∀ H, ddot A H = ddot B H) : A = B := by
  funext i j
  have := h (fun a b => if a = i ∧ b = j then 1 else 0)
  simpa [ddot, ite_and] using this

theorem pull_symm (V : Mat ℝ 3) {X : Mat ℝ 3} (h : Symm X) : Symm (pull V X) := by
  intro i j
  simp only [pull]
  rw [sum_comm]
  exact sum_congr rfl fun a _ => sum_congr rfl fun b _ => by rw [h b a]; ring

/-- `P` of the exact coefficients: the derivative of the strain in the direction `Y` of the Cauchy-Green tensor. -/
noncomputable def dE (lam : Vec3) (V Y : Mat ℝ 3) : Mat ℝ 3 :=
  conj V (fun i j => scaleDiff (lam i) (lam j) * pull V Y i j)

theorem of_dE (lam : Vec3) (V Y : Mat ℝ 3) :
    Matrix.of (dE lam V Y) = dfcn henckyScale lam (Matrix.of V) (Matrix.of Y) := by
  rw [dE, of_conj, dfcn]
  congr 2
  ext i j
  rw [← of_pull]
  rfl

theorem dE_selfadj (lam : Vec3) (V T Y : Mat ℝ 3) : ddot T (dE lam V Y) = ddot (dE lam V T) Y := by
  have hc : ∀ A B : Mat ℝ 3, ddot A B = ddot B A := fun A B => by simp only [ddot, mul_comm]
  rw [hc (dE lam V T) Y, dE, dE, ddot_conj, ddot_conj]
  simp only [ddot]
  exact sum_congr rfl fun i _ => sum_congr rfl fun j _ => by ring

theorem dE_symm (lam : Vec3) (V : Mat ℝ 3) {Y : Mat ℝ 3} (h : Symm Y) : Symm (dE lam V Y) := by
  have hp := pull_symm V h
  intro a b
  simp only [dE, conj]
  rw [sum_comm]
  refine sum_congr rfl fun i _ => sum_congr rfl fun j _ => ?_
  rw [hp j i, scaleDiff_comm]
  ring

theorem cdot_symm (F H : Mat ℝ 3) : Symm (cdot F H) := by
  intro i j
  simp only [cdot, Pi.add_apply, mul, tpose]
  rw [add_comm]
  congr 1 <;> exact sum_congr rfl fun k _ => mul_comm _ _

section
variable {eps tiny : ℝ} {lam : Vec3} {V F : Mat ℝ 3}

theorem projector_spec (hp : ∀ i, 0 < lam i) (hc : CoefSpec lam (coefficient eps tiny lam)) (H : Mat ℝ 3) :
    tmProd (projector eps tiny F lam V) H = dE lam V (cdot F H) := by
  rw [tmProd_projector]
  simp only [full_spec hp hc, dE]

/-- The stress conjugate to the deformation gradient. -/
noncomputable def pk1 (lam : Vec3) (V F T : Mat ℝ 3) : Mat ℝ 3 := mul F ((2 : ℝ) • dE lam V T)

theorem ddot_pk1 {T : Mat ℝ 3} (hT : Symm T) (H : Mat ℝ 3) :
    ddot (pk1 lam V F T) H = ddot T (dE lam V (cdot F H)) := by
  rw [dE_selfadj, pk1]
  have hs := dE_symm lam V hT
  generalize dE lam V T = S at hs
  simp only [ddot, cdot, mul, tpose, Fin.sum_univ_three, Pi.add_apply, Pi.smul_apply, smul_eq_mul]
  rw [hs 1 0, hs 2 0, hs 2 1]
  ring

theorem mtProd_projector (hp : ∀ i, 0 < lam i) (hc : CoefSpec lam (coefficient eps tiny lam)) {T : Mat ℝ 3}
    (hT : Symm T) : mtProd T (projector eps tiny F lam V) = pk1 lam V F T :=
  ddot_left fun H => by rw [ddot_mtProd, projector_spec hp hc, ddot_pk1 hT]

theorem mtProd_projectorPK2 (hp : ∀ i, 0 < lam i) (hc : CoefSpec lam (coefficient eps tiny lam)) {T : Mat ℝ 3}
    (hT : Symm T) : mtProd T (projectorPK2 eps tiny lam V) = (2 : ℝ) • dE lam V T := by
  rw [projectorPK2_eq, mtProd_projector hp hc hT, pk1, idm_mul]

end

/-! ### Paths -/

/-- The strain along a path. -/
theorem elog_velocity {solver : Mat ℝ 3 → Vec3 × Mat ℝ 3} (hs : IsSolver solver) {A : ℝ → Mat ℝ 3} {H : Mat ℝ 3} {t : ℝ}
    (h : Velocity A H t) (h0 : det (A t) ≠ 0) :
    Velocity (fun s => elog (solver (cauchyGreenRight (A s))).1 (solver (cauchyGreenRight (A s))).2)
      (dE (solver (cauchyGreenRight (A t))).1 (solver (cauchyGreenRight (A t))).2 (cdot (A t) H)) t := by
  rw [velocity_iff]
  simp only [of_elog, of_dE]
  have hC := velocity_cg h
  exact fcn_tendsto (Cs := fun s => Matrix.of (cauchyGreenRight (A s))) (fun s => eig_of (hs.eig _ (symm_cg _)))
    (velocity_iff.mp hC) (velocity_tendsto hC)
    fun i => (analytic_scale (eigen_pos h0 (hs.eig _ (symm_cg _)) i)).differentiableAt

end Verif.Lemmas.LogStrain
