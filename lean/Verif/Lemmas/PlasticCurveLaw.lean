import Verif.Lemmas.PlasticCurve
import Verif.Lemmas.PlasticLaw
/-! Lemmas for PlasticCurve.lean. -/
namespace Verif.Props.PlasticCurve
open Verif.Tensor Verif.TensorConv Verif.Mech Verif.Plastic Verif.Spec Verif.Lemmas.Mech Verif.Lemmas.Plastic
open Verif.Props.Plastic

/-- The trial stress of the law. -/
noncomputable def vse (d : Data) (q : Qp) (strain : Mat ℝ 3) : Mat ℝ 3 := (2 * d.mu) • deviator (strain - q.pstrainPrev)

/-- The trial value of the yield function. -/
noncomputable def vyield (d : Data) (q : Qp) (strain : Mat ℝ 3) : ℝ := sigmaeq (vse d q strain) - curveAt d.curve q.pPrev

theorem vmis_eq {plane : Bool} {q : Qp} {d : Data} (hq : Good plane q) (hc : Admissible d.mu d.curve) (strain : Mat ℝ 3)
    (tangent : Bool) :
    ∃ r, vmis3D plane q strain d tangent = .ok r ∧ r.1.1 = elasticStress d r.2.estrainCurr ∧
      r.2.pstrainPrev = q.pstrainPrev ∧ r.2.estrainPrev = q.estrainPrev ∧ r.2.pPrev = q.pPrev ∧
      trace r.2.pstrainCurr = 0 ∧ r.2.estrainCurr + r.2.pstrainCurr = strain ∧
      (vyield d q strain < 0 → r.2.isPlastic = false ∧ r.2.estrainCurr = strain - q.pstrainPrev ∧
        r.2.pstrainCurr = q.pstrainPrev ∧ r.2.pCurr = q.pPrev ∧ r.1.2 = elasticModulus3D d) ∧
      (0 ≤ vyield d q strain →
        let se := vse d q strain
        let i := findI1 d.curve d.mu q.pPrev (sigmaeq se) (findI0 d.curve q.pPrev)
        let dem := 3 * d.mu + slope d.curve i
        let dp := (sigmaeq se - ((pt d.curve i).2 + slope d.curve i * (q.pPrev - (pt d.curve i).1))) / dem
        let n : Mat ℝ 3 := (3 / (2 * sigmaeq se)) • se
        r.2.isPlastic = true ∧ r.2.estrainCurr = strain - q.pstrainPrev - dp • n ∧
        r.2.pstrainCurr = q.pstrainPrev + dp • n ∧ r.2.pCurr = q.pPrev + dp ∧
        (tangent = true → r.1.2 = elasticModulus3D d + tangentTerm d.mu dp (sigmaeq se) dem n)) := by
  have ht := trialStrain_good hq strain
  have hse : trace (vse d q strain) = 0 := by rw [vse, trace_smul, trace_deviator (by norm_num), mul_zero]
  have hlen : ¬ d.curve.length = 0 := by have := hc.two; omega
  obtain ⟨a1, a2, a3⟩ := findI0_spec hc.two hc.size q.pPrev
  obtain ⟨b1, b2, b3, b4⟩ := findI1_spec hc.two hc.size d.mu q.pPrev (sigmaeq (vse d q strain)) a1
  have hR : curveAt d.curve q.pPrev = (pt d.curve (findI0 d.curve q.pPrev)).2 +
      slope d.curve (findI0 d.curve q.pPrev) * (q.pPrev - (pt d.curve (findI0 d.curve q.pPrev)).1) := by
    rw [curveAt_seg hc.increasing a1 a2 a3, lineThrough_eq]
  unfold vmis3D
  dsimp only
  rw [if_neg hlen, readSeg_eq _ a1, Outcome.bind_ok]
  dsimp only
  rw [ht]
  rw [← vse]
  rw [if_neg (not_traceBad hse)]
  have hy : sigmaeq (vse d q strain) - (pt d.curve (findI0 d.curve q.pPrev)).2 -
      slope d.curve (findI0 d.curve q.pPrev) * (q.pPrev - (pt d.curve (findI0 d.curve q.pPrev)).1) =
      vyield d q strain := by rw [vyield, hR]; ring
  rw [hy]
  have hsmall : ∀ {A : Mat ℝ 3}, trace A = 0 → ¬ |trace A| > 1 / 10 ^ 8 := fun h => by rw [h, abs_zero]; norm_num
  by_cases hP : vyield d q strain < 0
  · rw [if_pos hP, if_neg (hsmall hq.trPrev)]
    refine ⟨_, rfl, rfl, rfl, rfl, rfl, hq.trPrev, ?_, fun _ => ⟨rfl, rfl, rfl, rfl, rfl⟩,
      fun h => absurd hP (not_lt.mpr h)⟩
    dsimp only
    abel
  · rw [if_neg hP]
    rw [readSeg_eq _ b2, Outcome.bind_ok]
    dsimp only
    rw [if_neg]
    · refine ⟨_, rfl, rfl, rfl, rfl, rfl, ?_, ?_, fun h => absurd h hP, fun _ => ⟨rfl, ?_, ?_, ?_, ?_⟩⟩
      · dsimp only
        change trace (_ + _ • _ • vse d q strain) = 0
        rw [trace_add, trace_smul, trace_smul, hse, hq.trPrev]; ring
      · dsimp only
        abel
      · dsimp only [vse]
        rw [sub_sub (sigmaeq _)]
      · dsimp only [vse]
        rw [sub_sub (sigmaeq _)]
      · dsimp only [vse]
        rw [sub_sub (sigmaeq _)]
      · rintro rfl
        dsimp only [vse]
        rw [sub_sub (sigmaeq _)]
        rfl
    · change ¬ |trace (_ + _ • _ • vse d q strain)| > _
      refine hsmall ?_
      rw [trace_add, trace_smul, trace_smul, hse, hq.trPrev]; ring

/-- The increment found by the search solves the scalar equation of the return mapping. -/
theorem increment {d : Data} {p0 q : ℝ} (hmu : 0 < d.mu) (hc : Admissible d.mu d.curve)
    (hP : curveAt d.curve p0 ≤ q) :
    let i := findI1 d.curve d.mu p0 q (findI0 d.curve p0)
    let dp := (q - ((pt d.curve i).2 + slope d.curve i * (p0 - (pt d.curve i).1))) / (3 * d.mu + slope d.curve i)
    0 ≤ dp ∧ curveAt d.curve (p0 + dp) + 3 * d.mu * dp = q := by
  obtain ⟨a1, a2, a3⟩ := findI0_spec hc.two hc.size p0
  obtain ⟨b1, b2, b3, b4⟩ := findI1_spec hc.two hc.size d.mu p0 q a1
  intro i dp
  have hdem := hc.slopes i b2
  have hline : ∀ x, lineThrough (pt d.curve i) (pt d.curve (i + 1)) x =
      (pt d.curve i).2 + slope d.curve i * (x - (pt d.curve i).1) := lineThrough_eq d.curve i
  have hdp : dp * (3 * d.mu + slope d.curve i) =
      q - ((pt d.curve i).2 + slope d.curve i * (p0 - (pt d.curve i).1)) := div_mul_cancel₀ _ hdem.ne'
  have hsol : lineThrough (pt d.curve i) (pt d.curve (i + 1)) (p0 + dp) + 3 * d.mu * dp = q := by
    rw [hline]; linarith
  have hup : i + 2 = d.curve.length ∨ p0 + dp < (pt d.curve (i + 1)).1 := by
    refine b4.imp id fun hb => ?_
    by_contra hcon
    push Not at hcon
    have h1 := lineThrough_right (pt_lt hc.increasing (Nat.lt_succ_self i) b2)
    have h2 : lineThrough (pt d.curve i) (pt d.curve (i + 1)) (pt d.curve (i + 1)).1 + 3 * d.mu * (pt d.curve (i + 1)).1 ≤
        lineThrough (pt d.curve i) (pt d.curve (i + 1)) (p0 + dp) + 3 * d.mu * (p0 + dp) := by
      rcases hcon.eq_or_lt with h | h
      · rw [h]
      · exact (line_lt hdem h).le
    rw [Nat.succ_eq_add_one] at h1
    rw [h1] at h2
    change 0 < (pt d.curve (i + 1)).2 - 3 * d.mu * (p0 - (pt d.curve (i + 1)).1) - q at hb
    linarith
  rcases b3 with b3 | b3
  · have hi : i = findI0 d.curve p0 := b3
    have h0 : 0 ≤ dp := by
      refine div_nonneg ?_ hdem.le
      rw [curveAt_seg hc.increasing a1 a2 a3, lineThrough_eq] at hP
      rw [hi]
      linarith
    refine ⟨h0, ?_⟩
    rw [curveAt_seg hc.increasing b2 (i := i) ?_ hup, hsol]
    rw [hi]
    exact a2.imp id fun h => by linarith
  · by_cases hi : i = findI0 d.curve p0
    · have h0 : 0 ≤ dp := by
        refine div_nonneg ?_ hdem.le
        rw [curveAt_seg hc.increasing a1 a2 a3, lineThrough_eq] at hP
        rw [hi]
        linarith
      refine ⟨h0, ?_⟩
      rw [curveAt_seg hc.increasing b2 (i := i) ?_ hup, hsol]
      rw [hi]
      exact a2.imp id fun h => by linarith
    · have hlt : findI0 d.curve p0 < i := lt_of_le_of_ne b1 (Ne.symm hi)
      have hlow : (pt d.curve i).1 ≤ p0 + dp := by
        by_contra hcon
        push Not at hcon
        have := line_lt (m := 3 * d.mu) hdem hcon
        rw [lineThrough_left] at this
        change (pt d.curve i).2 - 3 * d.mu * (p0 - (pt d.curve i).1) - q ≤ 0 at b3
        linarith
      have hcurve : curveAt d.curve (p0 + dp) + 3 * d.mu * dp = q := by
        rw [curveAt_seg hc.increasing b2 (Or.inr hlow) hup, hsol]
      refine ⟨?_, hcurve⟩
      have hp0 : p0 < (pt d.curve i).1 := by
        rcases a3 with h | h
        · exfalso
          have : i + 1 < d.curve.length := b2
          omega
        · exact lt_of_lt_of_le h (pt_le hc.increasing hlt (by have : i + 1 < d.curve.length := b2; omega))
      linarith

theorem vmis_euler {plane : Bool} {q : Qp} {d : Data} (hmu : 0 < d.mu) (hc : Admissible d.mu d.curve) (hq : Good plane q)
    (strain : Mat ℝ 3) (tangent : Bool) : ∃ r, vmis3D plane q strain d tangent = .ok r ∧
      r.1.1 = hooke d.lambda d.mu r.2.estrainCurr ∧
      EulerStep d.lambda d.mu 0 (curveAt d.curve) q.pstrainPrev q.pPrev strain r.2.estrainCurr r.2.pstrainCurr r.2.pCurr := by
  obtain ⟨r, hr, hs, e1, e2, e3, e4, e5, e6, e7⟩ := vmis_eq hq hc strain tangent
  have hse : vse d q strain = (2 * ({ d with K := 0 } : Data).mu) • deviator (strain - q.pstrainPrev) -
      ({ d with K := 0 } : Data).K • q.pstrainPrev := by
    rw [vse]
    simp
  refine ⟨r, hr, by rw [hs, hooke_eq], ?_⟩
  rcases lt_or_ge (vyield d q strain) 0 with hP | hP
  · obtain ⟨_, a1, a2, a3, _⟩ := e6 hP
    rw [a1, a2, a3]
    refine euler_elastic (d := { d with K := 0 }) hse ?_
    unfold vyield at hP
    linarith
  · obtain ⟨_, a1, a2, a3, _⟩ := e7 hP
    rw [a1, a2, a3]
    have hP' : curveAt d.curve q.pPrev ≤ sigmaeq (vse d q strain) := by unfold vyield at hP; linarith
    obtain ⟨h0, hsol⟩ := increment hmu hc hP'
    refine euler_plastic (d := { d with K := 0 }) hq.trPrev hse ?_ h0 ?_ ?_
    · exact lt_of_lt_of_le (hc.pos _ hq.nnPrev) hP'
    · exact (hc.pos _ (by have := hq.nnPrev; linarith)).le
    · refine Eq.trans ?_ hsol
      dsimp only
      ring

theorem vmis_good {plane : Bool} {q : Qp} {d : Data} (hmu : 0 < d.mu) (hc : Admissible d.mu d.curve) (hq : Good plane q)
    {strain : Mat ℝ 3} (hp : Plastic.restrict plane strain = strain) {tangent : Bool} {r : (Mat ℝ 3 × Tens ℝ 3) × Qp}
    (h : vmis3D plane q strain d tangent = .ok r) : Good plane r.2 := by
  obtain ⟨r', hr', _, e1, e2, e3, e4, e5, e6, e7⟩ := vmis_eq hq hc strain tangent
  obtain ⟨r'', hr'', _, he⟩ := vmis_euler hmu hc hq strain tangent
  rw [hr'] at h hr''
  cases h
  cases hr''
  exact ⟨by rw [e1]; exact hq.trPrev, e4, by rw [e1, e2]; exact hq.planePrev, by rw [e5, hp],
    by rw [e3]; exact hq.nnPrev, hq.nnPrev.trans he.grows⟩

theorem vmis_reach {plane : Bool} {d : Data} (hmu : 0 < d.mu) (hc : Admissible d.mu d.curve) {tangent : Bool} {q : Qp}
    (h : Reach (fun q e => vmis3D plane q e d tangent) (fun e => Plastic.restrict plane e = e) q) : Good plane q := by
  induction h with
  | fresh => exact good_fresh plane
  | compute _ hok hr ih => exact vmis_good hmu hc ih hok hr
  | update _ ih => exact good_update ih

theorem find_congr {f g : Nat → Bool} : ∀ {l : List Nat}, (∀ i ∈ l, f i = g i) → l.find? f = l.find? g
  | [], _ => rfl
  | a :: l, h => by
    rw [List.find?_cons, List.find?_cons, h a List.mem_cons_self, find_congr fun i hi => h i (List.mem_cons_of_mem a hi)]

theorem findI1_congr {c : List (ℝ × ℝ)} {mu p x y : ℝ} (i0 : Nat)
    (h : ∀ i < c.length, (0 < (pt c i).2 - 3 * mu * (p - (pt c i).1) - x ↔
      0 < (pt c i).2 - 3 * mu * (p - (pt c i).1) - y)) : findI1 c mu p x i0 = findI1 c mu p y i0 := by
  unfold findI1
  rw [find_congr fun i hi => ?_]
  rw [List.mem_range] at hi
  have := h i (by omega)
  unfold pt at this
  congr 1
  exact decide_eq_decide.mpr this

/-- The interpolant takes the given values. -/
theorem curveAt_pt {c : List (ℝ × ℝ)} (h : CurveIncreasing c) (h2 : 2 ≤ c.length) {i : Nat} (hi : i < c.length) :
    curveAt c (pt c i).1 = (pt c i).2 := by
  by_cases e : i + 1 < c.length
  · rw [curveAt_seg h e (Or.inr le_rfl) (Or.inr (pt_lt h (Nat.lt_succ_self i) e)), lineThrough_left]
  · obtain ⟨k, rfl⟩ : ∃ k, i = k + 1 := ⟨i - 1, by omega⟩
    rw [curveAt_seg h hi (Or.inr (pt_le h (Nat.le_succ k) hi)) (Or.inl (by omega)),
      lineThrough_right (pt_lt h (Nat.lt_succ_self k) hi)]

end Verif.Props.PlasticCurve
