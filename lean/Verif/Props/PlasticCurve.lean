import Verif.Lemmas.PlasticCurveLaw
import Verif.Lemmas.PlasticCurve
import Verif.Lemmas.PlasticLaw
/-!
Properties of the von Mises law with a hardening curve.
-/
namespace Verif.Props.PlasticCurve
open Verif.Tensor Verif.TensorConv Verif.Mech Verif.Plastic Verif.Spec Verif.Lemmas.Mech Verif.Lemmas.Plastic
open Verif.Props.Plastic

/-- C96: with a hardening curve of at least two points, in every state a quadrature point can reach, the law does not throw
and the new internal variables solve the implicit Euler step for the piecewise linear yield stress through the points. -/
theorem c96_step_partial {plane : Bool} {d : Data} (hmu : 0 < d.mu) (hc : Admissible d.mu d.curve) {tangent : Bool}
    {q : Qp} (hq : Reach (fun q e => vmis3D plane q e d tangent) (fun e => Plastic.restrict plane e = e) q)
    (strain : Mat ℝ 3) : ∃ r, vmis3D plane q strain d tangent = .ok r ∧
      r.1.1 = hooke d.lambda d.mu r.2.estrainCurr ∧
      EulerStep d.lambda d.mu 0 (curveAt d.curve) q.pstrainPrev q.pPrev strain r.2.estrainCurr r.2.pstrainCurr r.2.pCurr :=
  vmis_euler hmu hc (vmis_reach hmu hc hq) strain tangent

/-- C96: the Euler step has no other solution. -/
theorem c96_unique {plane : Bool} {d : Data} (hmu : 0 < d.mu) (hc : Admissible d.mu d.curve) {tangent : Bool} {q : Qp}
    (hq : Reach (fun q e => vmis3D plane q e d tangent) (fun e => Plastic.restrict plane e = e) q)
    {strain ee ep : Mat ℝ 3} {p : ℝ}
    (h : EulerStep d.lambda d.mu 0 (curveAt d.curve) q.pstrainPrev q.pPrev strain ee ep p) :
    ∃ r, vmis3D plane q strain d tangent = .ok r ∧ r.1.1 = hooke d.lambda d.mu ee ∧ r.2.estrainCurr = ee ∧
      r.2.pstrainCurr = ep ∧ r.2.pCurr = p := by
  have hg := vmis_reach hmu hc hq
  obtain ⟨r, hr, hs, he⟩ := vmis_euler hmu hc hg strain tangent
  have hmono := residual_mono (m := 3 * d.mu) hc.increasing hc.two hc.slopes
  have hu := euler_unique (d := { d with K := 0 }) hmu le_rfl hg.trPrev (fun p hp => hc.pos p (hg.nnPrev.trans hp))
    (fun a _ b _ hab => by
      have := hmono hab
      dsimp only at this ⊢
      linarith) he h
  exact ⟨r, hr, by rw [hs, hu.1], hu⟩

/-- C96: an empty curve means elasticity. -/
theorem c96_empty {plane : Bool} {d : Data} (hc : d.curve = []) {q : Qp} (hq : Good plane q) (strain : Mat ℝ 3)
    (tangent : Bool) : ∃ r, vmis3D plane q strain d tangent = .ok r ∧
      r.1.1 = hooke d.lambda d.mu (strain - q.pstrainPrev) ∧ r.1.2 = elasticModulus3D d ∧
      r.2.pstrainCurr = q.pstrainPrev ∧ r.2.pCurr = q.pPrev := by
  have hs : ¬ |trace q.pstrainPrev| > 1 / 10 ^ 8 := by rw [hq.trPrev, abs_zero]; norm_num
  unfold vmis3D
  simp only [hc, List.length_nil, if_true]
  rw [if_neg hs]
  refine ⟨_, rfl, ?_, rfl, rfl, rfl⟩
  dsimp only
  rw [trialStrain_good hq, hooke_eq]

/-- C96 fails for a curve of one point, which `checkRpCurve` accepts: the index `nb_point - 2` wraps around. -/
theorem c96_one_point_violated (plane : Bool) (q : Qp) (strain : Mat ℝ 3) (tangent : Bool) (d : Data) {a : ℝ × ℝ}
    (hc : d.curve = [a]) (eps : ℝ) :
    (vmis3D plane q strain d tangent).IsUB ∧ ∃ d', d.checkRpCurve eps = .ok d' ∧ d'.curve = [a] := by
  constructor
  · unfold vmis3D
    simp only [hc, List.length_singleton, one_ne_zero, if_false]
    have : readSeg [a] (findI0 [a] q.pPrev) = .ub "RpCurve[i]" := by
      simp [findI0, wrapSub, readSeg]
    rw [this]
    trivial
  · exact ⟨{ d with curve := [a] }, by simp [Data.checkRpCurve, hc, Sort.sortBy, Sort.insertBy, tooClose], rfl⟩

/-- C96 applies to the usual curves: increasing abscissas from `0`, positive and nondecreasing stresses. -/
theorem c96_usual {mu : ℝ} (hmu : 0 < mu) {c : List (ℝ × ℝ)} (h2 : 2 ≤ c.length) (hsize : c.length < 2 ^ 64)
    (hinc : c.Pairwise fun a b => a.1 < b.1) (hmono : c.Pairwise fun a b => a.2 ≤ b.2) (h0 : ∀ a ∈ c, 0 ≤ a.1)
    (h00 : (0 : ℝ) ∈ c.map Prod.fst) (hpos : ∀ a ∈ c, 0 < a.2) : Admissible mu c := by
  have hslope : ∀ i, i + 1 < c.length → 0 ≤ slope c i := by
    intro i hi
    have h1 := List.pairwise_iff_getElem.mp hmono i (i + 1) (by omega) hi (Nat.lt_succ_self i)
    have h3 := pt_lt hinc (Nat.lt_succ_self i) hi
    refine div_nonneg ?_ (by rw [Nat.succ_eq_add_one] at h3; linarith)
    have hi' : i < c.length := by omega
    simpa [pt, List.getD_eq_getElem?_getD, List.getElem?_eq_getElem, hi, hi'] using h1
  have hs : ∀ m : ℝ, 0 < m → ∀ i, i + 1 < c.length → 0 < m + slope c i := fun m hm i hi => by
    have := hslope i hi; linarith
  refine ⟨h2, hsize, hinc, hs _ (by linarith), fun p hp => ?_⟩
  match c, h2, hinc, h0, h00, hpos, hs with
  | a :: b :: r, h2, hinc, h0, h00, hpos, hs =>
    have ha0 : a.1 = 0 := by
      obtain ⟨x, hx, hx0⟩ := List.mem_map.mp h00
      rcases List.mem_cons.mp hx with rfl | hx
      · exact hx0
      · have h1 := (List.pairwise_cons.mp hinc).1 x hx
        have h3 := h0 a List.mem_cons_self
        linarith
    have hab : a.1 < b.1 := (List.pairwise_cons.mp hinc).1 b List.mem_cons_self
    have hfirst := curveAt_first (r := r) hab
    rw [ha0] at hfirst
    have ha := hpos a List.mem_cons_self
    by_contra hcon
    push Not at hcon
    rcases hp.eq_or_lt with h | h
    · rw [← h, hfirst] at hcon
      linarith
    · have hm : 0 < a.2 / p := div_pos ha h
      have := residual_mono hinc h2 (hs (a.2 / p / 2) (by positivity)) h
      dsimp only at this
      rw [hfirst] at this
      have e : a.2 / p / 2 * p = a.2 / 2 := by field_simp
      rw [e] at this
      linarith

example : Admissible 1 [(0, 1), (1, 2), (2, 2)] := by
  refine c96_usual one_pos (by simp) (by simp) ?_ ?_ ?_ ?_ ?_ <;> norm_num [List.pairwise_cons]

/-- C95 for the law with a hardening curve: the tangent it returns is the derivative of the stress, away from the yield
surface and from the corners of the curve. -/
theorem c95_curve {plane : Bool} {d : Data} (hmu : 0 < d.mu) (hc : Admissible d.mu d.curve) {q : Qp}
    (hq : Reach (fun q e => vmis3D plane q e d true) (fun e => Plastic.restrict plane e = e) q) (strain : Mat ℝ 3)
    (hP : misesNorm (relStress d.lambda d.mu 0 (strain - q.pstrainPrev) q.pstrainPrev) ≠ curveAt d.curve q.pPrev)
    (hcorner : ∀ r, vmis3D plane q strain d true = .ok r → r.2.isPlastic = true → r.2.pCurr ∉ d.curve.map Prod.fst) :
    IsTangentOn Symm (fun e => stressOf (vmis3D plane q e d true))
      (tmProd (tangentOf (vmis3D plane q strain d true))) strain := by
  have hg := vmis_reach hmu hc hq
  have hP : vyield d q strain ≠ 0 := by
    have e := relStress_eq { d with K := 0 } (strain - q.pstrainPrev) q.pstrainPrev
    dsimp only at e
    rw [e, misesNorm_eq] at hP
    rw [vyield, vse]
    simp only [zero_smul, sub_zero] at hP
    exact sub_ne_zero.mpr hP
  rintro A H t rfl hS h
  have hv : Velocity (fun s => A s - q.pstrainPrev) H t := velocity_sub_const h _
  have hvs : Velocity (fun s => vse d q (A s)) ((2 * d.mu) • deviator H) t :=
    fun i j => (velocity_deviator hv i j).const_mul (2 * d.mu)
  have hcs := continuousAt_sigmaeq hvs
  have hcont : ContinuousAt (fun s => vyield d q (A s)) t := hcs.sub continuousAt_const
  rcases lt_or_gt_of_ne hP with hP | hP
  · have e : tangentOf (vmis3D plane q (A t) d true) = elasticModulus3D d := by
      obtain ⟨r, hr, _, _, _, _, _, _, e6, _⟩ := vmis_eq (d := d) hg hc (A t) true
      rw [hr]
      exact (e6 hP).2.2.2.2
    rw [e, tmProd_elastic d hS]
    refine velocity_congr (velocity_elasticStress d hv) ?_
    filter_upwards [hcont.eventually_lt_const hP] with s hs
    obtain ⟨r, hr, h1, _, _, _, _, _, e6, _⟩ := vmis_eq (d := d) hg hc (A s) true
    rw [hr]
    show r.1.1 = _
    rw [h1, (e6 hs).2.1]
  · have hle : curveAt d.curve q.pPrev ≤ sigmaeq (vse d q (A t)) := by unfold vyield at hP; linarith
    have hpos : 0 < sigmaeq (vse d q (A t)) := lt_of_lt_of_le (hc.pos _ hg.nnPrev) hle
    obtain ⟨rt, hrt, _, _, _, _, _, _, _, e7⟩ := vmis_eq (d := d) hg hc (A t) true
    obtain ⟨c1, -, -, c4, c5⟩ := e7 hP.le
    obtain ⟨-, hsol⟩ := increment hmu hc hle
    have hmono := residual_mono (m := 3 * d.mu) hc.increasing hc.two hc.slopes
    have hne : ∀ i < d.curve.length,
        (pt d.curve i).2 - 3 * d.mu * (q.pPrev - (pt d.curve i).1) - sigmaeq (vse d q (A t)) ≠ 0 := by
      intro i hi h0
      refine hcorner rt hrt c1 (List.mem_map.mpr ⟨pt d.curve i, ?_, ?_⟩)
      · simp [pt, List.getD_eq_getElem?_getD, List.getElem?_eq_getElem, hi]
      · rw [c4]
        refine hmono.injective ?_
        rw [curveAt_pt hc.increasing hc.two hi]
        linarith
    have hev : ∀ᶠ s in nhds t, ∀ i ∈ Finset.range d.curve.length,
        (0 < (pt d.curve i).2 - 3 * d.mu * (q.pPrev - (pt d.curve i).1) - sigmaeq (vse d q (A s)) ↔
          0 < (pt d.curve i).2 - 3 * d.mu * (q.pPrev - (pt d.curve i).1) - sigmaeq (vse d q (A t))) := by
      refine (Filter.eventually_all_finset _).mpr fun i hi => ?_
      have hci : ContinuousAt (fun s => (pt d.curve i).2 - 3 * d.mu * (q.pPrev - (pt d.curve i).1) -
        sigmaeq (vse d q (A s))) t := continuousAt_const.sub hcs
      rcases lt_or_gt_of_ne (hne i (Finset.mem_range.mp hi)) with h0 | h0
      · filter_upwards [hci.eventually_lt_const h0] with s hs
        exact ⟨fun h => absurd h (not_lt.mpr hs.le), fun h => absurd h (not_lt.mpr h0.le)⟩
      · filter_upwards [hci.eventually_const_lt h0] with s hs
        exact ⟨fun _ => h0, fun _ => hs⟩
    obtain ⟨b1, b2, b3, b4⟩ := findI1_spec hc.two hc.size d.mu q.pPrev (sigmaeq (vse d q (A t)))
      (findI0_spec hc.two hc.size q.pPrev).1
    have hsl := hc.slopes _ b2
    generalize hi1 : findI1 d.curve d.mu q.pPrev (sigmaeq (vse d q (A t))) (findI0 d.curve q.pPrev) = i1 at *
    have key := radial_deriv d (X := 0) (R0 := (pt d.curve i1).2 + slope d.curve i1 * (q.pPrev - (pt d.curve i1).1)) hv hS
      (by simp [trace]) hsl.ne' (by rw [sub_zero]; exact hpos)
    dsimp only at key
    simp only [sub_zero] at key
    have e : tangentOf (vmis3D plane q (A t) d true) = rt.1.2 := by rw [hrt]; rfl
    rw [e, c5 rfl]
    refine velocity_congr key ?_
    filter_upwards [hcont.eventually_const_lt hP, hev] with s hs hsi
    obtain ⟨r, hr, h1, _, _, _, _, _, _, e7⟩ := vmis_eq (d := d) hg hc (A s) true
    rw [hr]
    show r.1.1 = _
    have hi : findI1 d.curve d.mu q.pPrev (sigmaeq (vse d q (A s))) (findI0 d.curve q.pPrev) = i1 := by
      rw [← hi1]
      exact findI1_congr _ fun i hi => hsi i (Finset.mem_range.mpr hi)
    have e8 := (e7 hs.le).2.1
    rw [hi] at e8
    rw [h1, e8]
    rfl

end Verif.Props.PlasticCurve
