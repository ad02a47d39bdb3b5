import Verif.Lemmas.Plastic
import Verif.Props.Tensor
import Verif.Props.TensorConv
import Verif.Props.Mech
/-! Lemmas for Plastic.lean. -/
namespace Verif.Props.Plastic
open Verif.Tensor Verif.TensorConv Verif.Mech Verif.Plastic Verif.Spec Verif.Lemmas.Mech Verif.Lemmas.Plastic Finset

theorem matrix2_matrix3D (M : Mat ℝ 2) : matrix2 (matrix3D M) = M := by
  funext i j
  fin_cases i <;> fin_cases j <;> simp [matrix2, matrix3D]

theorem trace_matrix3D (M : Mat ℝ 2) : trace (matrix3D M) = trace M := by
  simp [trace, Fin.sum_univ_three, Fin.sum_univ_two, matrix3D]

theorem symm_matrix3D {M : Mat ℝ 2} (h : Symm M) : Symm (matrix3D M) := by
  intro i j
  simp only [matrix3D, and_comm (a := i.val < 2)]
  split
  · exact h _ _
  · rfl

theorem elasticStress_plane (d : Data) (e : Mat ℝ 2) :
    matrix2 (elasticStress d (matrix3D e)) = (2 * d.mu) • e + (d.lambda * trace e) • idm 2 := by
  rw [elasticStress, trace_matrix3D]
  funext i j
  fin_cases i <;> fin_cases j <;> simp [matrix2, matrix3D, idm, Fin.ext_iff]

theorem velocity_matrix3D {A : ℝ → Mat ℝ 2} {H : Mat ℝ 2} {t : ℝ} (h : Velocity A H t) :
    Velocity (fun s => matrix3D (A s)) (matrix3D H) t := by
  intro i j
  simp only [matrix3D]
  split
  · exact h _ _
  · exact hasDerivAt_const t 0

/-- The states met by the plastic laws. -/
structure Good (plane : Bool) (q : Qp) : Prop where
  trPrev : trace q.pstrainPrev = 0
  trCurr : trace q.pstrainCurr = 0
  planePrev : restrict plane (q.estrainPrev + q.pstrainPrev) = q.estrainPrev + q.pstrainPrev
  planeCurr : restrict plane (q.estrainCurr + q.pstrainCurr) = q.estrainCurr + q.pstrainCurr
  nnPrev : 0 ≤ q.pPrev
  nnCurr : 0 ≤ q.pCurr

theorem restrict_zero (plane : Bool) : restrict plane (0 + 0) = 0 + 0 := by
  cases plane
  · rfl
  · funext i j
    simp [Plastic.restrict, matrix3D, matrix2]

theorem good_fresh (plane : Bool) : Good plane Qp.fresh :=
  ⟨trace_zero, trace_zero, restrict_zero plane, restrict_zero plane, le_rfl, le_rfl⟩

theorem good_update {plane : Bool} {q : Qp} (h : Good plane q) : Good plane q.update :=
  ⟨h.trCurr, h.trCurr, h.planeCurr, h.planeCurr, h.nnCurr, h.nnCurr⟩

theorem trialStrain_good {plane : Bool} {q : Qp} (h : Good plane q) (strain : Mat ℝ 3) :
    trialStrain plane q strain = strain - q.pstrainPrev := by
  rw [trialStrain, h.planePrev]; abel

/-- Parameters for which the law is a model of a hardening material. -/
structure Hardening (d : Data) : Prop where
  mu : 0 < d.mu
  H : 0 ≤ d.H
  K : 0 ≤ d.K
  sigma : 0 < d.sigmaY0

theorem dem_pos {d : Data} (hd : Hardening d) : 0 < 3 * d.mu + d.H + 3 * d.K / 2 := by
  have := hd.mu; have := hd.H; have := hd.K; positivity

theorem trace_trialStress {plane : Bool} {q : Qp} (h : Good plane q) (strain : Mat ℝ 3) (d : Data) :
    trace (trialStress plane q strain d) = 0 := by
  rw [trialStress, backStress, trace_sub, trace_smul, trace_smul, trace_deviator (by norm_num), h.trPrev]; ring

/-- The result of the law in the states it meets. -/
theorem linHard_eq {plane : Bool} {q : Qp} {d : Data} (hq : Good plane q) (strain : Mat ℝ 3) (tangent : Bool) :
    ∃ r, linHard3D plane q strain d tangent = .ok r ∧ r.1.1 = elasticStress d r.2.estrainCurr ∧
      r.2.pstrainPrev = q.pstrainPrev ∧ r.2.estrainPrev = q.estrainPrev ∧ r.2.pPrev = q.pPrev ∧
      trace r.2.pstrainCurr = 0 ∧ r.2.estrainCurr + r.2.pstrainCurr = strain ∧
      (trialYield plane q strain d < 0 → r.2.isPlastic = false ∧ r.2.estrainCurr = strain - q.pstrainPrev ∧
        r.2.pstrainCurr = q.pstrainPrev ∧ r.2.pCurr = q.pPrev ∧ r.1.2 = elasticModulus3D d) ∧
      (0 ≤ trialYield plane q strain d →
        let se := trialStress plane q strain d
        let dem := 3 * d.mu + d.H + 3 * d.K / 2
        let dp := trialYield plane q strain d / dem
        let n : Mat ℝ 3 := (3 / (2 * sigmaeq se)) • se
        r.2.isPlastic = true ∧ r.2.estrainCurr = strain - q.pstrainPrev - dp • n ∧
        r.2.pstrainCurr = q.pstrainPrev + dp • n ∧ r.2.pCurr = q.pPrev + dp ∧
        (tangent = true → r.1.2 = elasticModulus3D d + tangentTerm d.mu dp (sigmaeq se) dem n)) := by
  have h1 : ¬ traceBad (backStress q d) := not_traceBad (by rw [backStress, trace_smul, hq.trPrev, mul_zero])
  have hse := trace_trialStress hq strain d
  have h2 : ¬ traceBad (trialStress plane q strain d) := not_traceBad hse
  have ht := trialStrain_good hq strain
  unfold linHard3D
  dsimp only
  rw [if_neg h1, if_neg h2]
  by_cases hP : trialYield plane q strain d < 0
  · rw [if_pos hP, if_pos (Or.inl hP)]
    dsimp only
    rw [if_neg (not_traceBad hq.trPrev)]
    refine ⟨_, rfl, rfl, rfl, rfl, rfl, hq.trPrev, ?_, fun _ => ⟨rfl, ht, rfl, rfl, add_zero _⟩,
      fun h => absurd hP (not_lt.mpr h)⟩
    dsimp only
    rw [ht]; abel
  · rw [if_neg hP]
    dsimp only
    have htr : trace (q.pstrainPrev + (trialYield plane q strain d / (3 * d.mu + d.H + 3 * d.K / 2)) •
        ((3 / (2 * sigmaeq (trialStress plane q strain d))) • trialStress plane q strain d)) = 0 := by
      rw [trace_add, trace_smul, trace_smul, hse, hq.trPrev]; ring
    rw [if_neg (not_traceBad htr)]
    refine ⟨_, rfl, rfl, rfl, rfl, rfl, htr, ?_, fun h => absurd h hP, fun _ => ⟨rfl, ?_, rfl, rfl, ?_⟩⟩
    · dsimp only
      rw [ht]; abel
    · dsimp only
      rw [ht]
    · rintro rfl
      simp [hP]

theorem linHard_good {plane : Bool} {q : Qp} {d : Data} (hd : Hardening d) (hq : Good plane q) {strain : Mat ℝ 3}
    (hp : restrict plane strain = strain) {tangent : Bool} {r : (Mat ℝ 3 × Tens ℝ 3) × Qp}
    (h : linHard3D plane q strain d tangent = .ok r) : Good plane r.2 := by
  obtain ⟨r', hr', _, e1, e2, e3, e4, e5, e6, e7⟩ := linHard_eq (d := d) hq strain tangent
  rw [hr'] at h
  cases h
  refine ⟨by rw [e1]; exact hq.trPrev, e4, by rw [e1, e2]; exact hq.planePrev, by rw [e5, hp], by rw [e3]; exact hq.nnPrev, ?_⟩
  rcases lt_or_ge (trialYield plane q strain d) 0 with hP | hP
  · rw [(e6 hP).2.2.2.1]; exact hq.nnPrev
  · rw [(e7 hP).2.2.2.1]
    have := div_nonneg hP (dem_pos hd).le
    have := hq.nnPrev
    linarith

theorem reach_good {plane : Bool} {d : Data} (hd : Hardening d) {tangent : Bool} {q : Qp}
    (h : Reach (fun q e => linHard3D plane q e d tangent) (fun e => restrict plane e = e) q) : Good plane q := by
  induction h with
  | fresh => exact good_fresh plane
  | compute _ hok hr ih => exact linHard_good hd ih hok hr
  | update _ ih => exact good_update ih

theorem linHard_euler {plane : Bool} {q : Qp} {d : Data} (hd : Hardening d) (hq : Good plane q) (strain : Mat ℝ 3)
    (tangent : Bool) : ∃ r, linHard3D plane q strain d tangent = .ok r ∧
      r.1.1 = hooke d.lambda d.mu r.2.estrainCurr ∧
      EulerStep d.lambda d.mu d.K (fun p => d.sigmaY0 + d.H * p) q.pstrainPrev q.pPrev strain r.2.estrainCurr
        r.2.pstrainCurr r.2.pCurr ∧
      (r.2.isPlastic = false → r.2.pstrainCurr = q.pstrainPrev ∧ r.2.pCurr = q.pPrev) := by
  obtain ⟨r, hr, hs, e1, e2, e3, e4, e5, e6, e7⟩ := linHard_eq (d := d) hq strain tangent
  have hse : trialStress plane q strain d = (2 * d.mu) • deviator (strain - q.pstrainPrev) - d.K • q.pstrainPrev := by
    rw [trialStress, trialStrain_good hq, backStress]
  refine ⟨r, hr, by rw [hs, hooke_eq], ?_, ?_⟩
  · rcases lt_or_ge (trialYield plane q strain d) 0 with hP | hP
    · obtain ⟨_, a1, a2, a3, _⟩ := e6 hP
      rw [a1, a2, a3]
      refine euler_elastic hse ?_
      rw [trialYield] at hP
      linarith
    · obtain ⟨_, a1, a2, a3, _⟩ := e7 hP
      rw [a1, a2, a3]
      have hdem := dem_pos hd
      have hdp := div_nonneg hP hdem.le
      have h0 : 0 < d.sigmaY0 + d.H * q.pPrev := by
        have := hd.sigma; have := mul_nonneg hd.H hq.nnPrev; linarith
      refine euler_plastic hq.trPrev hse ?_ hdp ?_ ?_
      · rw [trialYield] at hP
        linarith
      · have := mul_nonneg hd.H hdp
        linarith
      · have : trialYield plane q strain d / (3 * d.mu + d.H + 3 * d.K / 2) * (3 * d.mu + d.H + 3 * d.K / 2) =
          trialYield plane q strain d := div_mul_cancel₀ _ hdem.ne'
        have h2 : trialYield plane q strain d = sigmaeq (trialStress plane q strain d) - d.sigmaY0 - d.H * q.pPrev := rfl
        linarith
  · intro hf
    rcases lt_or_ge (trialYield plane q strain d) 0 with hP | hP
    · exact ⟨(e6 hP).2.2.1, (e6 hP).2.2.2.1⟩
    · rw [(e7 hP).1] at hf
      cases hf

/-- The stress a law returns. -/
noncomputable def stressOf (o : Outcome ((Mat ℝ 3 × Tens ℝ 3) × Qp)) : Mat ℝ 3 :=
  match o with
  | .ok r => r.1.1
  | _ => 0

/-- The tangent a law returns. -/
noncomputable def tangentOf (o : Outcome ((Mat ℝ 3 × Tens ℝ 3) × Qp)) : Tens ℝ 3 :=
  match o with
  | .ok r => r.1.2
  | _ => 0

theorem velocity_congr {D : Nat} {A B : ℝ → Mat ℝ D} {H : Mat ℝ D} {t : ℝ} (h : Velocity A H t)
    (he : ∀ᶠ s in nhds t, B s = A s) : Velocity B H t := fun i j =>
  (h i j).congr_of_eventuallyEq (he.mono fun s hs => by simp only [hs])

theorem velocity_sub_const {D : Nat} {A : ℝ → Mat ℝ D} {H : Mat ℝ D} {t : ℝ} (h : Velocity A H t) (C : Mat ℝ D) :
    Velocity (fun s => A s - C) H t := fun i j => (h i j).sub_const (C i j)

theorem continuousAt_sigmaeq {A : ℝ → Mat ℝ 3} {H : Mat ℝ 3} {t : ℝ} (h : Velocity A H t) :
    ContinuousAt (fun s => sigmaeq (A s)) t :=
  (((velocity_sqNorm h).continuousAt).const_mul (3 / 2)).sqrt

end Verif.Props.Plastic
