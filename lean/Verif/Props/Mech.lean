import Verif.Lemmas.MechLaw
import Verif.Lemmas.Mech
import Verif.Spec.Mech
import Verif.Lemmas.Sort
import Mathlib.Analysis.Calculus.Deriv.Add
import Mathlib.Analysis.Calculus.Deriv.Mul
import Mathlib.LinearAlgebra.Matrix.Determinant.Basic
import Mathlib.Tactic.LinearCombination
import Mathlib.Tactic.FinCases
import Mathlib.Tactic.NormNum
/-!
Properties of strain measures, stress measures and material parameters.
-/
namespace Verif.Props.Mech
open Verif.Tensor Verif.TensorConv Verif.Mech Verif.Spec Verif.Lemmas.Mech Finset

variable {D : Nat}

/-- C90: deformation gradient and displacement gradient determine each other, the Cauchy-Green tensors are symmetric, and
the Green-Lagrange tensor measures half the change of squared length. -/
theorem c90_strain (F G : Mat ℝ D) (x : Fin D → ℝ) :
    fToG (gToF G) = G ∧ gToF (fToG F) = F ∧ Symm (cauchyGreenRight F) ∧ Symm (cauchyGreenLeft F) ∧
      Symm (greenLagrange F) ∧
      quadForm (cauchyGreenRight F) x = normSq (apply F x) ∧
      2 * quadForm (greenLagrange F) x = normSq (apply F x) - normSq x ∧
      gToGreenLagrange G = greenLagrange (gToF G) ∧
      gToGreenLagrange G = symGrad G + (1 / 2 : ℝ) • cauchyGreenRight G := by
  have hC : quadForm (cauchyGreenRight F) x = normSq (apply F x) := by
    simp only [quadForm, cauchyGreenRight, mul, tpose, normSq, apply, sum_mul, mul_sum]
    rw [sum_congr rfl fun i _ => sum_comm, sum_comm]
    refine sum_congr rfl fun k _ => sum_comm.trans ?_
    exact sum_congr rfl fun j _ => sum_congr rfl fun i _ => by ring
  have hI : quadForm (idm D) x = normSq x := by
    simp [quadForm, idm, normSq]
  have hsym : Symm (cauchyGreenRight F) := fun i j => by
    simp only [cauchyGreenRight, mul, tpose, mul_comm]
  refine ⟨?_, ?_, hsym, fun i j => by simp only [cauchyGreenLeft, mul, tpose, mul_comm], ?_, hC, ?_, rfl, ?_⟩
  · exact add_sub_cancel_right _ _
  · exact sub_add_cancel _ _
  · intro i j
    have h2 : idm D i j = idm D j i := by simp only [idm, eq_comm]
    show (1 / 2 : ℝ) * (cauchyGreenRight F i j - idm D i j) = (1 / 2 : ℝ) * (cauchyGreenRight F j i - idm D j i)
    rw [hsym i j, h2]
  · rw [← hC, ← hI]
    simp only [quadForm, greenLagrange, crToGreenLagrange, Pi.smul_apply, Pi.sub_apply, smul_eq_mul, mul_sum,
      ← sum_sub_distrib]
    exact sum_congr rfl fun i _ => sum_congr rfl fun j _ => by ring
  · have e : cauchyGreenRight (gToF G) = cauchyGreenRight G + tpose G + G + idm D := by
      rw [cauchyGreenRight, gToF, tpose_add, Lemmas.Mech.mul_add, Lemmas.Mech.add_mul, mul_idm, tpose_idm, idm_mul,
        cauchyGreenRight]
      abel
    rw [gToGreenLagrange, crToGreenLagrange, e]
    funext i j
    simp only [Pi.smul_apply, Pi.sub_apply, Pi.add_apply, smul_eq_mul, symGrad, tpose]
    ring

/-- C90 fails for `convertGtoLinearizedStrain`: an infinitesimal rotation, which has no linearized strain, gets a nonzero
one, in every dimension; and `G` and `-G` get the same. -/
theorem c90_linearized_violated :
    (∀ G : Mat ℝ D, (∀ i j, G i j = -G j i) → G ≠ 0 → symGrad G = 0 ∧ linearizedStrain G ≠ 0) ∧
    (∀ G : Mat ℝ D, linearizedStrain (-G) = linearizedStrain G) ∧
    ∃ G : Mat ℝ 2, linearizedStrain G ≠ symGrad G := by
  have key : ∀ {D : Nat} (G : Mat ℝ D), (∀ i j, G i j = -G j i) → G ≠ 0 →
      symGrad G = 0 ∧ linearizedStrain G ≠ 0 := by
    intro D G h hG
    refine ⟨?_, fun h0 => hG ?_⟩
    · funext i j
      simp only [symGrad, Pi.zero_apply]
      rw [h i j]; ring
    · rw [← sqNorm_eq_zero]
      have e : sqNorm G = 2 * trace (linearizedStrain G) := by
        rw [linearizedStrain, trace_smul]
        simp only [sqNorm, inner, trace, mul, tpose]
        ring
      rw [e, h0, trace_zero, mul_zero]
  refine ⟨key, fun G => ?_, !![0, 1; -1, 0], fun h => ?_⟩
  · funext i j
    simp [linearizedStrain, mul, tpose]
  · obtain ⟨h1, h2⟩ := key (!![0, 1; -1, 0] : Mat ℝ 2) (by intro i j; fin_cases i <;> fin_cases j <;> simp)
      (fun h => by have := congrFun (congrFun h 0) 1; simp at this)
    exact h2 (h.trans h1)

/-- C90, exactly when it holds: `convertGtoLinearizedStrain` returns the linearized strain iff `G - I` is orthogonal. -/
theorem c90_linearized_partial (G : Mat ℝ D) :
    linearizedStrain G = symGrad G ↔ mul (G - idm D) (tpose (G - idm D)) = idm D := by
  have e : mul (G - idm D) (tpose (G - idm D)) = mul G (tpose G) - G - tpose G + idm D := by
    have h : G - idm D = G + (-1 : ℝ) • idm D := by funext i j; simp [sub_eq_add_neg]
    rw [h, tpose_add, tpose_smul, tpose_idm, Lemmas.Mech.mul_add, Lemmas.Mech.add_mul, Lemmas.Mech.add_mul,
      Lemmas.Mech.mul_smul, Lemmas.Mech.smul_mul, mul_idm, idm_mul, Lemmas.Mech.mul_smul, Lemmas.Mech.smul_mul, mul_idm]
    funext i j
    simp only [Pi.smul_apply, Pi.sub_apply, Pi.add_apply, smul_eq_mul]
    ring
  rw [e]
  constructor
  · intro h
    funext i j
    have := congrFun (congrFun h i) j
    simp only [linearizedStrain, symGrad, Pi.smul_apply, smul_eq_mul] at this
    simp only [Pi.sub_apply, Pi.add_apply, tpose]
    linear_combination 2 * this
  · intro h
    funext i j
    have := congrFun (congrFun h i) j
    simp only [Pi.sub_apply, Pi.add_apply, tpose] at this
    simp only [linearizedStrain, symGrad, Pi.smul_apply, smul_eq_mul]
    linear_combination (1 / 2 : ℝ) * this

example : linearizedStrain (idm 2 + idm 2) = symGrad (idm 2 + idm 2) := by
  rw [c90_linearized_partial, add_sub_cancel_right, tpose_idm, mul_idm]

/-- C90: for an invertible deformation gradient the conversions between the first and second Piola-Kirchhoff and the Cauchy
stress are inverse to each other and commute. -/
theorem c90_stress {F : Mat ℝ D} (h : det F ≠ 0) (S : Mat ℝ D) :
    pk1ToPk2 (pk2ToPk1 S F) F = S ∧ pk2ToPk1 (pk1ToPk2 S F) F = S ∧
    pk1ToCauchy (cauchyToPk1 S F) F = S ∧ cauchyToPk1 (pk1ToCauchy S F) F = S ∧
    pk2ToCauchy (cauchyToPk2 S F) F = S ∧ cauchyToPk2 (pk2ToCauchy S F) F = S ∧
    pk2ToCauchy S F = pk1ToCauchy (pk2ToPk1 S F) F ∧ cauchyToPk2 S F = pk1ToPk2 (cauchyToPk1 S F) F := by
  have hi : mul (tpose (inv F)) (tpose F) = idm D := by rw [← tpose_mul, Lemmas.Mech.mul_inv h, tpose_idm]
  have hi' : mul (tpose F) (tpose (inv F)) = idm D := by rw [← tpose_mul, Lemmas.Mech.inv_mul h, tpose_idm]
  have a1 : pk1ToPk2 (pk2ToPk1 S F) F = S := by
    rw [pk1ToPk2, pk2ToPk1, ← Lemmas.Mech.mul_assoc, Lemmas.Mech.inv_mul h, idm_mul]
  have a2 : ∀ S, pk2ToPk1 (pk1ToPk2 S F) F = S := fun S => by
    rw [pk1ToPk2, pk2ToPk1, ← Lemmas.Mech.mul_assoc, Lemmas.Mech.mul_inv h, idm_mul]
  have a3 : ∀ S, pk1ToCauchy (cauchyToPk1 S F) F = S := fun S => by
    rw [pk1ToCauchy, cauchyToPk1, Lemmas.Mech.mul_assoc, hi, mul_idm, smul_smul, one_div_mul_cancel h, one_smul]
  have a4 : ∀ S, cauchyToPk1 (pk1ToCauchy S F) F = S := fun S => by
    rw [pk1ToCauchy, cauchyToPk1, smul_smul, mul_one_div_cancel h, one_smul, Lemmas.Mech.mul_assoc, hi', mul_idm]
  have b1 : ∀ S, pk2ToCauchy S F = pk1ToCauchy (pk2ToPk1 S F) F := fun S => rfl
  have b2 : ∀ S, cauchyToPk2 S F = pk1ToPk2 (cauchyToPk1 S F) F := fun S => by
    rw [cauchyToPk2, pk1ToPk2, cauchyToPk1]
    simp only [Lemmas.Mech.smul_mul, Lemmas.Mech.mul_smul, Lemmas.Mech.mul_assoc]
  exact ⟨a1, a2 S, a3 S, a4 S, by rw [b1, b2, a2, a3], by rw [b2, b1, a4, a1], b1 S, b2 S⟩

example : det (idm 3) ≠ 0 := by rw [det, of_idm, Matrix.det_one]; exact one_ne_zero

/-- C90: the second Piola-Kirchhoff stress is symmetric exactly when the Cauchy stress is, and it is then conjugate to the
Green-Lagrange strain: it does the same work as the first Piola-Kirchhoff stress in every motion. -/
theorem c90_conjugate {F : Mat ℝ D} (h : det F ≠ 0) (S H : Mat ℝ D) :
    (Symm S ↔ Symm (pk2ToCauchy S F)) ∧
    (Symm S → ddot (pk2ToPk1 S F) H = ddot S (symGrad (mul (tpose F) H))) := by
  have tsym : ∀ S : Mat ℝ D, Symm S ↔ tpose S = S :=
    fun S => ⟨fun h => funext fun i => funext fun j => h j i, fun h i j => congrFun (congrFun h j) i⟩
  refine ⟨?_, fun hS => ?_⟩
  · constructor
    · intro hS
      rw [tsym] at hS ⊢
      rw [pk2ToCauchy, tpose_smul, tpose_mul, tpose_mul, hS, tpose_tpose, Lemmas.Mech.mul_assoc]
    · intro hT
      rw [tsym] at hT ⊢
      have e := (c90_stress h S).2.2.2.2.2.1
      rw [← e]
      generalize pk2ToCauchy S F = T at hT
      rw [cauchyToPk2, tpose_mul, tpose_mul, hT, tpose_smul, tpose_tpose]
      simp only [Lemmas.Mech.smul_mul, Lemmas.Mech.mul_smul, Lemmas.Mech.mul_assoc]
  · have e1 : ddot (pk2ToPk1 S F) H = inner S (mul (tpose F) H) := inner_mul_left F S H
    have e2 : ddot S (symGrad (mul (tpose F) H)) =
        (1 / 2 : ℝ) * (inner S (mul (tpose F) H) + inner S (tpose (mul (tpose F) H))) := by
      rw [← inner_add_right]
      simp only [ddot, symGrad, inner, Pi.add_apply, tpose, mul_sum]
      exact sum_congr rfl fun i _ => sum_congr rfl fun j _ => by ring
    have e3 : inner S (tpose (mul (tpose F) H)) = inner S (mul (tpose F) H) := by
      conv_lhs => rw [← (tsym S).mp hS, inner_tpose]
    rw [e1, e2, e3]; ring

/-- C90: the von Mises stress ignores pressure, scales with the stress, vanishes exactly for pressures, and has the usual
expression in three dimensions. -/
theorem c90_von_mises (hD : 0 < D) (A : Mat ℝ D) (c : ℝ) (B : Mat ℝ 3) :
    vonMises (A + c • idm D) = vonMises A ∧ vonMises (c • A) = |c| * vonMises A ∧
      (vonMises A = 0 ↔ A = spheric A) ∧
      vonMises B ^ 2 = ((B 0 0 - B 1 1) ^ 2 + (B 1 1 - B 2 2) ^ 2 + (B 2 2 - B 0 0) ^ 2) / 2 +
        3 / 2 * (B 0 1 ^ 2 + B 1 0 ^ 2 + B 0 2 ^ 2 + B 2 0 ^ 2 + B 1 2 ^ 2 + B 2 1 ^ 2) := by
  refine ⟨?_, ?_, ?_, ?_⟩
  · rw [vonMises, deviator_add, deviator_smul, deviator_idm hD, smul_zero, add_zero, vonMises]
  · rw [vonMises, deviator_smul, sqNorm_smul, show 3 / 2 * (c ^ 2 * sqNorm (deviator A)) =
      c ^ 2 * (3 / 2 * sqNorm (deviator A)) by ring, Real.sqrt_mul (sq_nonneg c), Real.sqrt_sq_eq_abs, vonMises]
  · have h0 : 0 ≤ 3 / 2 * sqNorm (deviator A) := by have := sqNorm_nonneg (deviator A); positivity
    rw [vonMises, Real.sqrt_eq_zero h0, mul_eq_zero, sqNorm_eq_zero]
    simp only [deviator, spheric, sub_eq_zero]
    norm_num
  · have h0 : 0 ≤ 3 / 2 * sqNorm (deviator B) := by have := sqNorm_nonneg (deviator B); positivity
    rw [vonMises, Real.sq_sqrt h0]
    simp only [sqNorm, inner, deviator, trace, idm, Fin.sum_univ_three, Pi.sub_apply, Pi.smul_apply, smul_eq_mul]
    norm_num [Fin.ext_iff]
    ring

/-- C91: the Lame parameters computed from Young's modulus and Poisson's ratio give these back, and conversely; the tangent
modulus used to define the hardening is given back. -/
theorem c91_parameters (d : Data) :
    (∀ E nu, E ≠ 0 → 1 + nu ≠ 0 → 1 - 2 * nu ≠ 0 →
      ((d.setMu E nu).setLambda E nu).getE = E ∧ ((d.setMu E nu).setLambda E nu).getNu = nu) ∧
    (d.mu ≠ 0 → d.lambda + d.mu ≠ 0 → 3 * d.lambda + 2 * d.mu ≠ 0 →
      (d.setMu d.getE d.getNu).setLambda d.getE d.getNu = d) ∧
    (∀ ET K, d.getE ≠ 0 → d.getE ≠ ET → ((d.setK K).setH d.getE ET K).getET = ET) := by
  refine ⟨fun E nu hE h1 h2 => ?_, fun hm hl h3 => ?_, fun ET K hE hne => ?_⟩
  · have h2' : 1 - nu * 2 ≠ 0 := by rwa [mul_comm nu]
    have hsum : E * nu / ((1 + nu) * (1 - 2 * nu)) + E / (2 * (1 + nu)) = E / (2 * (1 + nu) * (1 - 2 * nu)) := by
      field_simp
      ring
    have hne : E / (2 * (1 + nu) * (1 - 2 * nu)) ≠ 0 :=
      div_ne_zero hE (mul_ne_zero (mul_ne_zero two_ne_zero h1) h2)
    constructor
    · show E / (2 * (1 + nu)) * (3 * (E * nu / ((1 + nu) * (1 - 2 * nu))) + 2 * (E / (2 * (1 + nu)))) /
        (E * nu / ((1 + nu) * (1 - 2 * nu)) + E / (2 * (1 + nu))) = E
      rw [hsum, div_eq_iff hne]
      field_simp
      ring
    · show E * nu / ((1 + nu) * (1 - 2 * nu)) / (2 * (E * nu / ((1 + nu) * (1 - 2 * nu)) + E / (2 * (1 + nu)))) = nu
      rw [hsum, div_eq_iff (mul_ne_zero two_ne_zero hne)]
      field_simp
  · obtain ⟨l, m, H, K, s, t, c⟩ := d
    simp only [Data.setMu, Data.setLambda, Data.getE, Data.getNu] at *
    have h3' : 3 * l + m * 2 ≠ 0 := by rwa [mul_comm m]
    have a1 : 1 + l / (2 * (l + m)) = (3 * l + 2 * m) / (2 * (l + m)) := by field_simp; ring
    have a2 : 1 - 2 * (l / (2 * (l + m))) = m / (l + m) := by field_simp; ring
    congr 1
    · rw [a1, a2]; field_simp
    · rw [a1]; field_simp
  · show d.getE * (d.getE * ET / (d.getE - ET) - 3 / 2 * K + 3 / 2 * K) /
      (d.getE * ET / (d.getE - ET) - 3 / 2 * K + 3 / 2 * K + d.getE) = ET
    generalize d.getE = E at *
    have h0 : E - ET ≠ 0 := sub_ne_zero.mpr hne
    rw [sub_add_cancel]
    have : E * ET / (E - ET) + E = E * E / (E - ET) := by field_simp; ring
    rw [this]
    field_simp

example : (((Data.default 1).setMu 3 (1 / 4)).setLambda 3 (1 / 4)).getE = 3 :=
  ((c91_parameters (Data.default 1)).1 3 (1 / 4) (by norm_num) (by norm_num) (by norm_num)).1

/-- C91: `checkRpCurve` accepts a hardening curve exactly when all abscissas differ by at least the tolerance, whatever the
order the points were added in, and then stores the same points by increasing abscissa. -/
theorem c91_curve {eps : ℝ} (he : 0 < eps) (d : Data) :
    ((d.checkRpCurve eps).Throws ↔ ¬ d.curve.Pairwise (fun a b => eps ≤ |a.1 - b.1|)) ∧
    ∀ d', d.checkRpCurve eps = .ok d' → d'.curve.Perm d.curve ∧ d'.curve.Pairwise (fun a b => a.1 + eps ≤ b.1) ∧
      d' = { d with curve := d'.curve } := by
  set c := Sort.sortBy (fun a b : ℝ × ℝ => decide (a.1 < b.1)) d.curve with hc
  have hperm : c.Perm d.curve := Sort.sortBy_perm _ _
  have hsort : c.Pairwise (fun a b => a.1 ≤ b.1) := by
    have := Sort.sortBy_weak (fun a b : ℝ × ℝ => decide (a.1 < b.1)) (by simp; intros; linarith) (by
      simp; intros; linarith) d.curve
    exact this.imp fun h => by simpa using h
  have hsymm : c.Pairwise (fun a b => eps ≤ |a.1 - b.1|) ↔ d.curve.Pairwise (fun a b => eps ≤ |a.1 - b.1|) :=
    hperm.pairwise_iff fun h => by rwa [abs_sub_comm]
  have hiff : tooClose eps c = false ↔ d.curve.Pairwise (fun a b => eps ≤ |a.1 - b.1|) := by
    rw [tooClose_iff hsort, ← hsymm]
    constructor
    · intro h
      exact h.imp fun {a b} h => by rw [abs_sub_comm, abs_of_nonneg (by linarith [h.2])]; linarith [h.1]
    · intro h
      refine (h.and hsort).imp fun {a b} h => ⟨?_, h.2⟩
      have := h.1
      rw [abs_sub_comm, abs_of_nonneg (by linarith [h.2])] at this
      linarith
  rw [← hiff]
  unfold Data.checkRpCurve
  dsimp only
  rw [← hc]
  cases hb : tooClose eps c
  · refine ⟨by simp, fun d' h => ?_⟩
    simp only [Bool.false_eq_true, if_false, Outcome.ok.injEq] at h
    subst h
    exact ⟨hperm, ((tooClose_iff hsort).mp hb).imp fun h => h.1, rfl⟩
  · simp

/-- C92: the first derivative of the determinant. -/
theorem c92_first :
    (∀ F : Mat ℝ 2, IsStressOf det (jacobianFirst2 F) F) ∧ ∀ F : Mat ℝ 3, IsStressOf det (jacobianFirst3 F) F := by
  refine ⟨?_, ?_⟩
  · rintro F A H t rfl h
    simp only [det, Matrix.det_fin_two, Matrix.of_apply]
    have := ((h 0 0).fun_mul (h 1 1)).fun_sub ((h 0 1).fun_mul (h 1 0))
    refine this.congr_deriv ?_
    simp only [ddot, jacobianFirst2, Fin.sum_univ_two]
    simp
    ring
  · rintro F A H t rfl h
    simp only [det, Matrix.det_fin_three, Matrix.of_apply]
    have := ((((((h 0 0).fun_mul (h 1 1)).fun_mul (h 2 2)).fun_sub (((h 0 0).fun_mul (h 1 2)).fun_mul (h 2 1))).fun_sub
      (((h 0 1).fun_mul (h 1 0)).fun_mul (h 2 2))).fun_add (((h 0 1).fun_mul (h 1 2)).fun_mul (h 2 0))).fun_add
      (((h 0 2).fun_mul (h 1 0)).fun_mul (h 2 1)) |>.fun_sub (((h 0 2).fun_mul (h 1 1)).fun_mul (h 2 0))
    refine this.congr_deriv ?_
    simp only [ddot, jacobianFirst3, Fin.sum_univ_three]
    simp
    ring

/-- C92: the second derivative of the determinant in two dimensions. -/
theorem c92_second2 (F : Mat ℝ 2) :
    IsTangentOn (fun _ => True) jacobianFirst2 (tmProd (jacobianSecond2 F)) F := by
  rintro A H t rfl - h i j
  rw [tmProd_second2]
  fin_cases i <;> fin_cases j <;> simp only [jacobianFirst2] <;> simp
  · exact h 1 1
  · exact (h 1 0).fun_neg
  · exact (h 0 1).fun_neg
  · exact h 0 0

/-- C92 in three dimensions for velocities with no `(0, 0)` entry, or at matrices with equal entries `(1, 2)` and
`(2, 1)`. -/
theorem c92_second3_partial (F : Mat ℝ 3) :
    IsTangentOn (fun H => H 0 0 = 0 ∨ F 1 2 = F 2 1) jacobianFirst3 (tmProd (jacobianSecond3 F)) F := by
  rintro A H t rfl hV h i j
  have e := tmProd_second3 (A t) H i j
  have hz : (A t 1 2 - A t 2 1) * H 0 0 = 0 := by
    rcases hV with h0 | h0
    · rw [h0, mul_zero]
    · rw [h0, sub_self, zero_mul]
  rw [hz] at e
  have e' : tmProd (jacobianSecond3 (A t)) H i j = cofRate (A t) H i j := by
    rw [e]; split <;> ring
  rw [e']
  exact cofRate_deriv h i j

/-- C92 fails in three dimensions: the derivative of entry `(2, 1)` of the cofactor matrix with respect to entry `(0, 0)`
reads the transposed entry of the matrix. -/
theorem c92_second3_violated :
    ∃ F : Mat ℝ 3, ¬ IsTangentOn (fun _ => True) jacobianFirst3 (tmProd (jacobianSecond3 F)) F := by
  refine ⟨fun i j => if i = 1 ∧ j = 2 then 1 else 0, fun hT => ?_⟩
  set F : Mat ℝ 3 := fun i j => if i = 1 ∧ j = 2 then 1 else 0 with hF
  set H : Mat ℝ 3 := fun i j => if i = 0 ∧ j = 0 then 1 else 0 with hH
  have hv : Velocity (fun s i j => F i j + s * H i j) H 0 := fun i j => by
    simpa using ((hasDerivAt_id (0 : ℝ)).mul_const (H i j)).const_add (F i j)
  have h1 := hT (fun s i j => F i j + s * H i j) H 0 (by funext i j; simp) trivial hv 2 1
  have h2 := cofRate_deriv hv 2 1
  have h3 := h1.unique h2
  have e := tmProd_second3 F H 2 1
  rw [e] at h3
  have e4 : (fun i j => F i j + (0 : ℝ) * H i j) = F := by funext i j; simp
  rw [e4] at h3
  simp [hF, hH] at h3

/-- C92 fails for `NormFroFirstDerivate`, at every matrix with a nonzero deviator: it is not the derivative of the norm of
the deviator, as it decreases when the deviator grows. -/
theorem c92_norm_violated (hD : 0 < D) {F : Mat ℝ D} (h : deviator F ≠ 0) :
    ¬ IsStressOf (fun A => Mech.norm (deviator A)) (normFroFirstDerivate (deviator F)) F := by
  intro hs
  have hD' : (0 : ℝ) < D := by exact_mod_cast hD
  have hn : 0 < Mech.norm (deviator F) := by
    refine Real.sqrt_pos.mpr (lt_of_le_of_ne (sqNorm_nonneg _) (Ne.symm ?_))
    rwa [Ne, sqNorm_eq_zero]
  have h1 := hs (fun s => F + s • deviator F) (deviator F) 0 (by simp) fun i j => by
    simpa using ((hasDerivAt_id' (0 : ℝ)).mul_const (deviator F i j)).const_add (F i j)
  have hd : deviator (deviator F) = deviator F := deviator_of_trace (trace_deviator hD F)
  have h2 : HasDerivAt (fun s : ℝ => Mech.norm (deviator (F + s • deviator F))) (Mech.norm (deviator F)) (0 : ℝ) := by
    have e : ∀ s : ℝ, -1 < s → Mech.norm (deviator (F + s • deviator F)) = (1 + s) * Mech.norm (deviator F) := by
      intro s hs
      have : deviator (F + s • deviator F) = (1 + s) • deviator F := by
        rw [deviator_add, deviator_smul, hd, add_smul, one_smul]
      rw [this, Mech.norm, sqNorm_smul, Real.sqrt_mul (sq_nonneg _), Real.sqrt_sq (by linarith), Mech.norm]
    refine ((((hasDerivAt_id' (0 : ℝ)).const_add 1).mul_const (Mech.norm (deviator F))).congr_of_eventuallyEq ?_).congr_deriv
      (one_mul _)
    filter_upwards [lt_mem_nhds (show (-1 : ℝ) < 0 by norm_num)] with s hs
    exact e s hs
  have h3 := h1.unique h2
  have h4 : ddot (normFroFirstDerivate (deviator F)) (deviator F) ≤ 0 := by
    refine Finset.sum_nonpos fun i _ => Finset.sum_nonpos fun j _ => ?_
    have hs := Real.sqrt_nonneg (Mech.norm (deviator F))
    have hfac : (0 : ℝ) ≤ 1 - 1 / D := by
      rw [sub_nonneg, div_le_one hD']
      exact_mod_cast hD
    simp only [normFroFirstDerivate]
    rw [div_mul_eq_mul_div, div_nonpos_iff]
    refine Or.inr ⟨?_, mul_nonneg hn.le hs⟩
    split
    · have := mul_nonneg (mul_self_nonneg (deviator F i j)) hfac
      nlinarith [this]
    · have := mul_self_nonneg (deviator F i j)
      nlinarith [this]
  linarith

/-- The hypothesis can be met. -/
example : deviator (![![0, 1], ![0, 0]] : Mat ℝ 2) ≠ 0 := fun h => by
  have := congrFun (congrFun h 0) 1
  simp [deviator, idm] at this

/-- The first derivative of the determinant at the identity is the trace. -/
example : jacobianFirst3 (idm 3) 0 0 = 1 ∧ jacobianFirst3 (idm 3) 0 1 = 0 := by
  simp [jacobianFirst3, idm]

end Verif.Props.Mech
