import Verif.Lemmas.PlasticLaw
import Verif.Lemmas.Plastic
import Verif.Props.Tensor
import Verif.Props.TensorConv
import Verif.Props.Mech
/-!
Properties of the small strain behaviour laws.
-/
namespace Verif.Props.Plastic
open Verif.Tensor Verif.TensorConv Verif.Mech Verif.Plastic Verif.Spec Verif.Lemmas.Mech Verif.Lemmas.Plastic Finset

/-- C93: the stress of linear elasticity is Hooke's law, it derives from the elastic energy, and the tangent is its
derivative, also in plane strain. -/
theorem c93_elasticity (q : Qp) (d : Data) (e : Mat ℝ 3) (e2 : Mat ℝ 2) :
    (linearElasticity3D q e d).1.1 = hooke d.lambda d.mu e ∧
    IsStressOf (fun e => d.mu * ddot e e + d.lambda / 2 * tr3 e ^ 2) (linearElasticity3D q e d).1.1 e ∧
    IsTangentOn Symm (fun e => (linearElasticity3D q e d).1.1) (tmProd (linearElasticity3D q e d).1.2) e ∧
    (∀ i j, (linearElasticity2D q e2 d).1.1 i j =
      2 * d.mu * e2 i j + if i = j then d.lambda * (e2 0 0 + e2 1 1) else 0) ∧
    (∀ H, Symm H → tmProd (linearElasticity2D q e2 d).1.2 H = (linearElasticity2D q H d).1.1) ∧
    (linearElasticity3D q e d).2.estrainCurr = e := by
  refine ⟨(hooke_eq d e).symm, ?_, ?_, ?_, ?_, rfl⟩
  · rintro A H t rfl h
    have h1 := (velocity_sqNorm h).const_mul d.mu
    have h2 := ((velocity_trace h).fun_pow 2).const_mul (d.lambda / 2)
    have h3 := h1.fun_add h2
    simp only [tr3_eq]
    refine h3.congr_deriv ?_
    show _ = inner (elasticStress d (A t)) H
    rw [elasticStress, inner_add_left, inner_smul_left, inner_smul_left, inner_comm (idm 3), inner_idm]
    push_cast
    ring
  · rintro A H t rfl hS h
    show Velocity (fun s => elasticStress d (A s)) (tmProd (elasticModulus3D d) H) t
    rw [tmProd_elastic d hS]
    exact velocity_elasticStress d h
  · intro i j
    show matrix2 (elasticStress d (matrix3D e2)) i j = _
    rw [elasticStress_plane]
    simp only [Pi.add_apply, Pi.smul_apply, smul_eq_mul, idm, trace, Fin.sum_univ_two]
    split <;> ring
  · intro H hH
    show tmProd (tensor2 (elasticModulus3D d)) H = matrix2 (elasticStress d (matrix3D H))
    rw [Mgis.c70_plane, tmProd_elastic d (symm_matrix3D hH)]

/-- C93: the linear law of finite deformations. -/
theorem c93_linear (q : Qp) (d : Data) (F : Mat ℝ 3) :
    (linearLaw3D q F d).1.1 = d.lambda • F ∧
    IsTangentOn (fun _ => True) (fun F => (linearLaw3D q F d).1.1) (tmProd (linearLaw3D q F d).1.2) F := by
  refine ⟨rfl, ?_⟩
  rintro A H t rfl - h
  show Velocity (fun s => d.lambda • A s) (tmProd (d.lambda • identity ℝ 3) H) t
  rw [tmProd_smul, TensorAlg.c45_identity (Or.inr (Or.inr rfl))]
  exact fun i j => (h i j).const_mul d.lambda

/-- C94: in every state a quadrature point can reach, the law with linear isotropic and kinematic hardening does not throw,
and the new internal variables solve the implicit Euler step from the last accepted ones. -/
theorem c94_step {plane : Bool} {d : Data} (hd : Hardening d) {tangent : Bool} {q : Qp}
    (hq : Reach (fun q e => linHard3D plane q e d tangent) (fun e => restrict plane e = e) q)
    (strain : Mat ℝ 3) : ∃ r, linHard3D plane q strain d tangent = .ok r ∧
      r.1.1 = hooke d.lambda d.mu r.2.estrainCurr ∧
      EulerStep d.lambda d.mu d.K (fun p => d.sigmaY0 + d.H * p) q.pstrainPrev q.pPrev strain r.2.estrainCurr
        r.2.pstrainCurr r.2.pCurr ∧
      (r.2.isPlastic = false → r.2.pstrainCurr = q.pstrainPrev ∧ r.2.pCurr = q.pPrev) :=
  linHard_euler hd (reach_good hd hq) strain tangent

/-- C94: the Euler step has no other solution, so its equations determine what the law returns. -/
theorem c94_unique {plane : Bool} {d : Data} (hd : Hardening d) {tangent : Bool} {q : Qp}
    (hq : Reach (fun q e => linHard3D plane q e d tangent) (fun e => restrict plane e = e) q)
    {strain ee ep : Mat ℝ 3} {p : ℝ}
    (h : EulerStep d.lambda d.mu d.K (fun p => d.sigmaY0 + d.H * p) q.pstrainPrev q.pPrev strain ee ep p) :
    ∃ r, linHard3D plane q strain d tangent = .ok r ∧ r.1.1 = hooke d.lambda d.mu ee ∧ r.2.estrainCurr = ee ∧
      r.2.pstrainCurr = ep ∧ r.2.pCurr = p := by
  have hg := reach_good hd hq
  obtain ⟨r, hr, hs, he, _⟩ := linHard_euler hd hg strain tangent
  have hu := euler_unique hd.mu hd.K hg.trPrev (fun p hp => by
      have := hd.sigma; have := mul_nonneg hd.H (hg.nnPrev.trans hp); linarith)
    (fun a _ b _ hab => by
      have h1 := hd.mu; have h2 := hd.K
      have h3 : 0 < 3 * d.mu + 3 * d.K / 2 := by positivity
      have := mul_lt_mul_of_pos_left hab h3
      have := mul_le_mul_of_nonneg_left hab.le hd.H
      dsimp only
      linarith) he h
  exact ⟨r, hr, by rw [hs, hu.1], hu⟩

/-- C94: evaluating the law does not move the accepted state, so that repeated evaluations (Newton iterations) are
independent of each other; `update` accepts the last evaluation. -/
theorem c94_iterations {plane : Bool} {d : Data} (hd : Hardening d) {tangent : Bool} {q : Qp}
    (hq : Reach (fun q e => linHard3D plane q e d tangent) (fun e => restrict plane e = e) q)
    (strain strain' : Mat ℝ 3) (t' : Bool) : ∃ r, linHard3D plane q strain d tangent = .ok r ∧
      linHard3D plane r.2 strain' d t' = linHard3D plane q strain' d t' ∧
      r.2.update.pstrainPrev = r.2.pstrainCurr ∧ r.2.update.pPrev = r.2.pCurr ∧
      r.2.update.estrainPrev + r.2.update.pstrainPrev = strain := by
  obtain ⟨r, hr, hs, e1, e2, e3, e4, e5, e6, e7⟩ := linHard_eq (d := d) (reach_good hd hq) strain tangent
  refine ⟨r, hr, ?_, rfl, rfl, e5⟩
  clear hr hs e4 e5 e6 e7
  obtain ⟨r0, r1, r2, r3, r4, r5, r6, r7⟩ := r
  dsimp only at e1 e2 e3
  subst e1 e2 e3
  rfl

/-- The parameters, a state and both kinds of steps exist. -/
example : Hardening (Data.of5 1 1 1 1 1) ∧
    Reach (fun q e => linHard3D true q e (Data.of5 1 1 1 1 1) true) (fun e => Plastic.restrict true e = e) Qp.fresh :=
  ⟨⟨one_pos, zero_le_one, zero_le_one, one_pos⟩, .fresh⟩

/-- C95: the tangent returned by the law with linear hardening is the derivative of the stress with respect to the strain,
for all symmetric strain rates, away from the yield surface. -/
theorem c95_linear {plane : Bool} {d : Data} (hd : Hardening d) {q : Qp}
    (hq : Reach (fun q e => linHard3D plane q e d true) (fun e => Plastic.restrict plane e = e) q) (strain : Mat ℝ 3)
    (hP : trialYield plane q strain d ≠ 0) :
    IsTangentOn Symm (fun e => stressOf (linHard3D plane q e d true))
      (tmProd (tangentOf (linHard3D plane q strain d true))) strain := by
  have hg := reach_good hd hq
  rintro A H t rfl hS h
  have hv : Velocity (fun s => A s - q.pstrainPrev) H t := velocity_sub_const h _
  have hse : ∀ s, trialStress plane q (A s) d = (2 * d.mu) • deviator (A s - q.pstrainPrev) - d.K • q.pstrainPrev :=
    fun s => by rw [trialStress, trialStrain_good hg, backStress]
  have hvs : Velocity (fun s => trialStress plane q (A s) d) ((2 * d.mu) • deviator H) t := by
    simp only [hse]
    exact velocity_sub_const (fun i j => (velocity_deviator hv i j).const_mul (2 * d.mu)) _
  have hcont : ContinuousAt (fun s => trialYield plane q (A s) d) t :=
    ((continuousAt_sigmaeq hvs).sub continuousAt_const).sub continuousAt_const
  rcases lt_or_gt_of_ne hP with hP | hP
  · have e : tangentOf (linHard3D plane q (A t) d true) = elasticModulus3D d := by
      obtain ⟨r, hr, _, _, _, _, _, _, e6, _⟩ := linHard_eq (d := d) hg (A t) true
      rw [hr]
      exact (e6 hP).2.2.2.2
    rw [e, tmProd_elastic d hS]
    refine velocity_congr (velocity_elasticStress d hv) ?_
    filter_upwards [hcont.eventually_lt_const hP] with s hs
    obtain ⟨r, hr, h1, _, _, _, _, _, e6, _⟩ := linHard_eq (d := d) hg (A s) true
    rw [hr]
    show r.1.1 = _
    rw [h1, (e6 hs).2.1]
  · have hpos : 0 < sigmaeq (trialStress plane q (A t) d) := by
      have := hd.sigma; have := mul_nonneg hd.H hg.nnPrev
      unfold trialYield at hP
      linarith
    have key := radial_deriv d (R0 := d.sigmaY0 + d.H * q.pPrev) hv hS
      (show trace (d.K • q.pstrainPrev) = 0 by rw [trace_smul, hg.trPrev, mul_zero]) (dem_pos hd).ne'
      (by rw [← hse]; exact hpos)
    dsimp only at key
    simp only [← hse] at key
    have hy : ∀ s, sigmaeq (trialStress plane q (A s) d) - (d.sigmaY0 + d.H * q.pPrev) = trialYield plane q (A s) d :=
      fun s => by unfold trialYield; ring
    simp only [hy] at key
    have e : tangentOf (linHard3D plane q (A t) d true) = elasticModulus3D d +
        tangentTerm d.mu (trialYield plane q (A t) d / (3 * d.mu + d.H + 3 * d.K / 2))
          (sigmaeq (trialStress plane q (A t) d)) (3 * d.mu + d.H + 3 * d.K / 2)
          ((3 / (2 * sigmaeq (trialStress plane q (A t) d))) • trialStress plane q (A t) d) := by
      obtain ⟨r, hr, _, _, _, _, _, _, _, e7⟩ := linHard_eq (d := d) hg (A t) true
      rw [hr]
      exact (e7 hP.le).2.2.2.2 rfl
    rw [e]
    refine velocity_congr key ?_
    filter_upwards [hcont.eventually_const_lt hP] with s hs
    obtain ⟨r, hr, h1, _, _, _, _, _, _, e7⟩ := linHard_eq (d := d) hg (A s) true
    rw [hr]
    show r.1.1 = _
    rw [h1, (e7 hs.le).2.1]

/-- C95 in plane strain. -/
theorem c95_linear_plane {d : Data} (hd : Hardening d) {q : Qp}
    (hq : Reach (fun q e => linHard3D true q e d true) (fun e => Plastic.restrict true e = e) q) (strain : Mat ℝ 2)
    (hP : trialYield true q (matrix3D strain) d ≠ 0) :
    ∃ f : Mat ℝ 2 → (Mat ℝ 2 × Tens ℝ 2) × Qp, (∀ e, linHard2D q e d true = .ok (f e)) ∧
      IsTangentOn Symm (fun e => (f e).1.1) (tmProd (f strain).1.2) strain := by
  have hg := reach_good hd hq
  have hex : ∀ e : Mat ℝ 2, ∃ r, linHard3D true q (matrix3D e) d true = .ok r := fun e => by
    obtain ⟨r, hr, _⟩ := linHard_eq (d := d) hg (matrix3D e) true
    exact ⟨r, hr⟩
  choose g hgr using hex
  refine ⟨fun e => ((matrix2 (g e).1.1, tensor2 (g e).1.2), (g e).2), fun e => ?_, ?_⟩
  · rw [linHard2D, hgr e]; rfl
  · rintro A H t rfl hS h
    have h3 : Velocity (fun s => matrix3D (A s)) (matrix3D H) t := velocity_matrix3D h
    have := c95_linear hd hq (matrix3D (A t)) hP (fun s => matrix3D (A s)) (matrix3D H) t rfl (symm_matrix3D hS) h3
    simp only [hgr, stressOf, tangentOf] at this
    dsimp only
    rw [Mgis.c70_plane]
    exact fun i j => this _ _

/-- Both sides of the yield surface are reached from the initial state. -/
example : trialYield false Qp.fresh 0 (Data.of5 1 1 1 1 1) < 0 ∧
    0 < trialYield false Qp.fresh ![![0, 1, 0], ![1, 0, 0], ![0, 0, 0]] (Data.of5 1 1 1 1 1) := by
  constructor
  · simp [trialYield, trialStress, trialStrain, backStress, Qp.fresh, Data.of5, deviator, trace, sigmaeq, sqNorm, inner,
      Plastic.restrict]
  · have h : trialStress false Qp.fresh ![![0, 1, 0], ![1, 0, 0], ![0, 0, 0]] (Data.of5 1 1 1 1 1) =
        ![![0, 2, 0], ![2, 0, 0], ![0, 0, 0]] := by
      funext i j
      fin_cases i <;> fin_cases j <;>
        simp [trialStress, trialStrain, backStress, Qp.fresh, Data.of5, deviator, trace, Plastic.restrict,
          Fin.sum_univ_three]
    have h12 : sigmaeq ![![0, 2, 0], ![2, 0, 0], ![0, 0, 0]] = Real.sqrt 12 := by
      rw [sigmaeq]
      congr 1
      simp [sqNorm, inner, Fin.sum_univ_three]
      norm_num
    have : 1 < Real.sqrt 12 := Real.lt_sqrt_of_sq_lt (by norm_num)
    rw [trialYield, h, h12]
    simp [Data.of5, Qp.fresh]
    linarith

end Verif.Props.Plastic
