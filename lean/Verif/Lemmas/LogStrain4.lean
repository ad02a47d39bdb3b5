import Verif.Lemmas.LogStrain3
import Verif.Lemmas.HyperLaw
/-!
The stress conjugate to the logarithmic strain and its derivative.
-/
namespace Verif.Lemmas.LogStrain
open Verif.Tensor Verif.TensorConv Verif.Mech Verif.LogStrain Verif.Spec Verif.Lemmas.Mech Verif.Lemmas.Plastic
  Verif.Lemmas.MatFun Finset Filter Topology

variable {solver : Mat ℝ 3 → Vec3 × Mat ℝ 3} {A : ℝ → Mat ℝ 3} {H : Mat ℝ 3} {t : ℝ}

/-- Eigenvalues and eigenvectors of the right Cauchy-Green tensor. -/
noncomputable def evs (solver : Mat ℝ 3 → Vec3 × Mat ℝ 3) (F : Mat ℝ 3) : Vec3 := (solver (cauchyGreenRight F)).1
noncomputable def evv (solver : Mat ℝ 3 → Vec3 × Mat ℝ 3) (F : Mat ℝ 3) : Mat ℝ 3 := (solver (cauchyGreenRight F)).2
/-- The strain the law is called with. -/
noncomputable def strain (solver : Mat ℝ 3 → Vec3 × Mat ℝ 3) (F : Mat ℝ 3) : Mat ℝ 3 :=
  elog (evs solver F) (evv solver F)

theorem evs_pos (hs : IsSolver solver) {F : Mat ℝ 3} (h : det F ≠ 0) (i : Fin 3) : 0 < evs solver F i :=
  eigen_pos h (hs.eig _ (symm_cg _)) i

theorem dE_velocity_fixed (hs : IsSolver solver) (h : Velocity A H t) (h0 : 0 < det (A t)) (T : Mat ℝ 3) :
    Velocity (fun s => dE (evs solver (A s)) (evv solver (A s)) T)
      (d2E (evs solver (A t)) (evv solver (A t)) T (cdot (A t) H)) t := by
  rw [velocity_iff]
  simp only [of_dE, of_d2E]
  have hC := velocity_cg h
  refine dfcn_tendsto (Cs := fun s => Matrix.of (cauchyGreenRight (A s))) (fun s => eig_of (hs.eig _ (symm_cg _)))
    (velocity_iff.mp hC) (velocity_tendsto hC)
    (fun i => analytic_scale (evs_pos hs h0.ne' i)) ?_
  exact ((Props.Hyper.eventually_pos h h0).filter_mono nhdsWithin_le_nhds).mono fun s h1 i =>
    analytic_scale (evs_pos hs h1.ne' i)

/-- The unit matrices. -/
noncomputable def unitM (a b : Fin 3) : Mat ℝ 3 := fun i j => if i = a ∧ j = b then 1 else 0

theorem unit_sum (T : Mat ℝ 3) : T = ∑ a, ∑ b, T a b • unitM a b := by
  funext i j
  simp only [Finset.sum_apply, Pi.smul_apply, unitM, smul_eq_mul, mul_ite, mul_one, mul_zero]
  rw [sum_eq_single i, sum_eq_single j]
  · simp
  · intro b _ hb; simp [Ne.symm hb]
  · simp
  · intro a _ ha; exact sum_eq_zero fun b _ => by simp [Ne.symm ha]
  · simp

theorem dE_unit (lam : Vec3) (V T : Mat ℝ 3) (i j : Fin 3) :
    dE lam V T i j = ∑ a, ∑ b, T a b * dE lam V (unitM a b) i j := by
  conv_lhs => rw [unit_sum T]
  simp only [Fin.sum_univ_three, dE_add, dE_smul, Pi.add_apply, Pi.smul_apply, smul_eq_mul]

theorem d2E_add (lam : Vec3) (V X Y Z : Mat ℝ 3) : d2E lam V (X + Y) Z = d2E lam V X Z + d2E lam V Y Z := by
  have hp : pull V (X + Y) = pull V X + pull V Y := by
    funext a b; simp only [pull, Pi.add_apply, Fin.sum_univ_three]; ring
  funext a b
  simp only [d2E, conj, hp, Pi.add_apply]
  rw [← sum_add_distrib]
  refine sum_congr rfl fun i _ => ?_
  rw [← sum_add_distrib]
  refine sum_congr rfl fun j _ => ?_
  simp only [Fin.sum_univ_three]
  ring

theorem d2E_smul (lam : Vec3) (V Y Z : Mat ℝ 3) (c : ℝ) : d2E lam V (c • Y) Z = c • d2E lam V Y Z := by
  have hp : pull V (c • Y) = c • pull V Y := by
    funext a b; simp only [pull, Pi.smul_apply, smul_eq_mul, Fin.sum_univ_three]; ring
  funext a b
  simp only [d2E, conj, hp, Pi.smul_apply, smul_eq_mul, mul_sum]
  refine sum_congr rfl fun i _ => sum_congr rfl fun j _ => ?_
  simp only [Fin.sum_univ_three]
  ring

theorem d2E_unit (lam : Vec3) (V T Y : Mat ℝ 3) (i j : Fin 3) :
    d2E lam V T Y i j = ∑ a, ∑ b, T a b * d2E lam V (unitM a b) Y i j := by
  conv_lhs => rw [unit_sum T]
  simp only [Fin.sum_univ_three, d2E_add, d2E_smul, Pi.add_apply, Pi.smul_apply, smul_eq_mul]

theorem dE_velocity (hs : IsSolver solver) (h : Velocity A H t) (h0 : 0 < det (A t)) {Ts : ℝ → Mat ℝ 3} {T' : Mat ℝ 3}
    (hT : Velocity Ts T' t) :
    Velocity (fun s => dE (evs solver (A s)) (evv solver (A s)) (Ts s))
      (dE (evs solver (A t)) (evv solver (A t)) T' +
        d2E (evs solver (A t)) (evv solver (A t)) (Ts t) (cdot (A t) H)) t := by
  intro i j
  simp only [fun s => dE_unit (evs solver (A s)) (evv solver (A s)) (Ts s) i j]
  have hd := HasDerivAt.fun_sum (u := univ) fun a (_ : a ∈ univ) => HasDerivAt.fun_sum (u := univ) fun b (_ : b ∈ univ) =>
    (hT a b).fun_mul (dE_velocity_fixed hs h h0 (unitM a b) i j)
  refine hd.congr_deriv ?_
  simp only [sum_add_distrib, Pi.add_apply]
  rw [dE_unit _ _ T', d2E_unit]

theorem line_velocity (F H : Mat ℝ 3) : Velocity (fun s => F + s • H) H 0 := by
  intro i j
  simp only [Pi.add_apply, Pi.smul_apply, smul_eq_mul]
  simpa using ((hasDerivAt_id' (0 : ℝ)).mul_const (H i j)).const_add (F i j)

/-- The conjugate stress is unique. -/
theorem conjugate_unique (hs : IsSolver solver) {T S : Mat ℝ 3 → Mat ℝ 3} {dom : Mat ℝ 3 → Prop}
    (hS : IsConjugate dom (strain solver) T S) {F : Mat ℝ 3} (hF : dom F) (h0 : det F ≠ 0)
    (hT : Symm (T (strain solver F))) :
    S F = pk1 (evs solver F) (evv solver F) F (T (strain solver F)) := by
  refine ddot_left fun H => ?_
  have e0 : F + (0 : ℝ) • H = F := by rw [zero_smul, add_zero]
  rw [ddot_pk1 hT]
  have hv := elog_velocity hs (line_velocity F H) (by simp only [e0]; exact h0)
  simp only [e0] at hv
  exact hS F hF _ H _ 0 e0 (line_velocity F H) hv

theorem conjugate_exists (hs : IsSolver solver) {T : Mat ℝ 3 → Mat ℝ 3} (hT : ∀ E, Symm E → Symm (T E))
    (hE : ∀ F, Symm (strain solver F)) :
    IsConjugate (fun F => det F ≠ 0) (strain solver) T
      fun F => pk1 (evs solver F) (evv solver F) F (T (strain solver F)) := by
  rintro F hF A H K t rfl hA hK
  rw [ddot_pk1 (hT _ (hE _))]
  have hv := elog_velocity hs hA hF
  congr 1
  funext i j
  exact (hv i j).unique (hK i j)

theorem strain_symm (F : Mat ℝ 3) : Symm (strain solver F) := by
  intro i j
  simp only [strain, elog, mul, tpose, Fin.sum_univ_three]
  simp
  ring

theorem velocity_symm {Ts : ℝ → Mat ℝ 3} {T' : Mat ℝ 3} (h : Velocity Ts T' t) (hs : ∀ s, Symm (Ts s)) : Symm T' := by
  intro i j
  have := h j i
  simp only [fun s => hs s j i] at this
  exact (h i j).unique this

/-- The tangent of the conjugate stress. -/
theorem conjugate_tangent (hs : IsSolver solver) {T S : Mat ℝ 3 → Mat ℝ 3} (hT : ∀ E, Symm E → Symm (T E))
    (hS : IsConjugate (fun F => 0 < det F) (strain solver) T S) {Ct : Tens ℝ 3} {F : Mat ℝ 3} (h0 : 0 < det F)
    (hCt : IsTangentOn Symm T (tmProd Ct) (strain solver F)) (h : Velocity A H t) (hA : A t = F) :
    Symm (tmProd Ct (dE (evs solver F) (evv solver F) (cdot F H))) ∧
    Velocity (fun s => S (A s))
      (mul F ((2 : ℝ) • (dE (evs solver F) (evv solver F) (tmProd Ct (dE (evs solver F) (evv solver F) (cdot F H))) +
          d2E (evs solver F) (evv solver F) (T (strain solver F)) (cdot F H))) +
        mul H ((2 : ℝ) • dE (evs solver F) (evv solver F) (T (strain solver F)))) t := by
  subst hA
  have hE := elog_velocity hs h h0.ne'
  have hT' := hCt (fun s => strain solver (A s)) _ t rfl (dE_symm _ _ (cdot_symm _ _)) hE
  refine ⟨velocity_symm hT' fun s => hT _ (strain_symm _), ?_⟩
  have hd := dE_velocity hs h h0 hT'
  have hd2 : Velocity (fun s => (2 : ℝ) • dE (evs solver (A s)) (evv solver (A s)) (T (strain solver (A s))))
      ((2 : ℝ) • (dE (evs solver (A t)) (evv solver (A t))
          (tmProd Ct (dE (evs solver (A t)) (evv solver (A t)) (cdot (A t) H))) +
        d2E (evs solver (A t)) (evv solver (A t)) (T (strain solver (A t))) (cdot (A t) H))) t :=
    fun i j => (hd i j).const_mul 2
  have hm := Hyper.velocity_mul h hd2
  rw [add_comm] at hm
  refine Props.Hyper.velocity_congr hm ((Props.Hyper.eventually_pos h h0).mono fun s h1 => ?_)
  rw [conjugate_unique hs hS h1 h1.ne' (hT _ (strain_symm _)), pk1]

end Verif.Lemmas.LogStrain
