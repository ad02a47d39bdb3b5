import Verif.Lemmas.TestScalar
import Mathlib.Analysis.Calculus.Deriv.Slope
/-!
The data of the obstacle problem.
-/
namespace Verif.Lemmas.TestData
open Verif.TestData Verif.Spec.TestData Real Finset

variable {d : Nat}

/-- `r² - r0²`. -/
noncomputable def lev (p : Fin d → ℝ) : ℝ := ∑ j, p j * p j - obsR0 * obsR0

theorem partial_sum {ι : Type} (s : Finset ι) {u : ι → (Fin d → ℝ) → ℝ} {a : ι → ℝ} {i : Fin d} {p : Fin d → ℝ}
    (h : ∀ j ∈ s, Partial (u j) i p (a j)) : Partial (fun q => ∑ j ∈ s, u j q) i p (∑ j ∈ s, a j) :=
  HasDerivAt.fun_sum h

theorem partial_lev (i : Fin d) (p : Fin d → ℝ) : Partial lev i p (2 * p i) := by
  have h : Partial (fun q : Fin d → ℝ => ∑ j, q j * q j) i p (∑ j, if j = i then 2 * p i else 0) := by
    refine partial_sum _ fun j _ => ?_
    by_cases hj : j = i
    · subst hj
      rw [if_pos rfl]
      exact Pd.conv (Pd.mul Pd.same Pd.same) (by ring)
    · rw [if_neg hj]
      exact Pd.conv (Pd.mul (Pd.other hj) (Pd.other hj)) (by ring)
  rw [Finset.sum_ite_eq' univ i, if_pos (mem_univ i)] at h
  exact Pd.conv (Pd.sub h (Pd.const (obsR0 * obsR0))) (by ring)

/-- The positive part squared is differentiable. -/
theorem hasDerivAt_pos_sq (t : ℝ) : HasDerivAt (fun s : ℝ => max s 0 * max s 0) (2 * max t 0) t := by
  rcases lt_trichotomy t 0 with h | h | h
  · rw [max_eq_right h.le, mul_zero]
    refine (hasDerivAt_const t (0 : ℝ)).congr_of_eventuallyEq ?_
    filter_upwards [isOpen_Iio.mem_nhds h] with s hs
    rw [max_eq_right (le_of_lt hs), mul_zero]
  · subst h
    rw [max_self, mul_zero, hasDerivAt_iff_tendsto_slope_zero]
    have hc : Filter.Tendsto (fun s : ℝ => max s 0) (nhdsWithin 0 {0}ᶜ) (nhds 0) := by
      have : Continuous fun s : ℝ => max s 0 := continuous_id.max continuous_const
      simpa using (this.tendsto 0).mono_left nhdsWithin_le_nhds
    refine hc.congr' ?_
    filter_upwards [self_mem_nhdsWithin] with s hs
    have hs0 : s ≠ 0 := hs
    rcases lt_or_gt_of_ne hs0 with h | h
    · simp [max_eq_right h.le]
    · simp [max_eq_left h.le, hs0]
  · rw [max_eq_left h.le]
    refine (HasDerivAt.congr_deriv (HasDerivAt.mul (hasDerivAt_id' t) (hasDerivAt_id' t))
      (by ring : (1 : ℝ) * t + t * 1 = 2 * t)).congr_of_eventuallyEq ?_
    filter_upwards [isOpen_Ioi.mem_nhds h] with s hs
    rw [max_eq_left (le_of_lt hs)]
    rfl

/-- The gradient of the solution. -/
noncomputable def obsGrad (p : Fin d → ℝ) : Fin d → ℝ := fun i => 4 * max (lev p) 0 * p i

theorem isGradObs (p : Fin d → ℝ) : IsGradAt (fun q => max (lev q) 0 * max (lev q) 0) (obsGrad p) p := by
  intro i
  have h := partial_lev i p
  have hu : Function.update p i (p i) = p := Function.update_eq_self i p
  have ho := hasDerivAt_pos_sq (lev (Function.update p i (p i)))
  have hc := HasDerivAt.comp (p i) ho h
  rw [hu] at hc
  refine HasDerivAt.congr_deriv hc ?_
  simp only [obsGrad]
  ring

theorem continuous_lev_update (p : Fin d → ℝ) (i : Fin d) : Continuous fun s => lev (Function.update p i s) := by
  unfold lev
  have hu : Continuous fun s => Function.update p i s := continuous_const.update i continuous_id
  have hj : ∀ j, Continuous fun s => Function.update p i s j := fun j => (continuous_apply j).comp hu
  exact (continuous_finsetSum _ fun j _ => (hj j).mul (hj j)).sub continuous_const

theorem divObs {p : Fin d → ℝ} (hp : 0 < lev p) :
    IsDivAt obsGrad p (∑ i, (8 * (p i * p i) + 4 * lev p)) := by
  refine ⟨fun i => 8 * (p i * p i) + 4 * lev p, fun i => ?_, rfl⟩
  refine Pd.congr (u := fun q => 4 * lev q * q i) ?_ (Pd.conv (Pd.mul (Pd.mul (Pd.const 4) (partial_lev i p)) Pd.same) (by ring))
  have ho : IsOpen {s | 0 < lev (Function.update p i s)} := isOpen_lt continuous_const (continuous_lev_update p i)
  have hm : p i ∈ {s | 0 < lev (Function.update p i s)} := by
    simpa only [Set.mem_ofPred_eq, Function.update_eq_self] using hp
  filter_upwards [ho.mem_nhds hm] with s hs
  simp only [obsGrad]
  rw [max_eq_left (le_of_lt hs)]

theorem obs_sq {p : Fin d → ℝ} {r : ℝ} (hr : r * r = ∑ j, p j * p j) (h0 : 0 ≤ r) : 0 < lev p ↔ obsR0 < r := by
  have hp : (0 : ℝ) < obsR0 := by norm_num [obsR0]
  unfold lev
  rw [← hr, sub_pos]
  exact mul_self_lt_mul_self_iff hp.le h0 |>.symm

/-- The obstacle problem, for a load that is `-Δ` of the solution outside and non-positive inside. -/
theorem obstacle_of {r f : (Fin d → ℝ) → ℝ} (hr : ∀ p, r p * r p = ∑ j, p j * p j) (h0 : ∀ p, 0 ≤ r p)
    (hout : ∀ p, obsR0 < r p → f p = -(8 * (r p * r p) + 4 * d * (r p * r p - obsR0 * obsR0)))
    (hin : ∀ p, ¬ obsR0 < r p → f p ≤ 0) :
    Obstacle (fun p => max (r p * r p - obsR0 * obsR0) 0 * max (r p * r p - obsR0 * obsR0) 0) f := by
  have hl : ∀ p, r p * r p - obsR0 * obsR0 = lev p := fun p => by rw [hr]; rfl
  simp only [hl]
  refine ⟨obsGrad, fun p => isGradObs p, fun p => mul_self_nonneg _, fun p hp => ?_, fun p hp => ?_⟩
  · have hpos : 0 < lev p := by
      by_contra hn
      simp only at hp
      rw [max_eq_right (not_lt.1 hn), mul_zero] at hp
      exact lt_irrefl _ hp
    have hf := hout p ((obs_sq (hr p) (h0 p)).1 hpos)
    have hd := divObs hpos
    have he : -f p = ∑ i, (8 * (p i * p i) + 4 * lev p) := by
      rw [hf, hl, Finset.sum_add_distrib, ← Finset.mul_sum, ← hr]
      simp
      ring
    rw [he]
    exact hd
  · have hm : max (lev p) 0 = 0 := mul_self_eq_zero.1 hp
    have hn : ¬ 0 < lev p := fun h => by rw [max_eq_left h.le] at hm; exact h.ne' hm
    refine ⟨funext fun i => by simp [obsGrad, hm], hin p fun h => hn ((obs_sq (hr p) (h0 p)).2 h)⟩

theorem obstacle2 : Obstacle obsSol2 obsRhs2 := by
  have hr : ∀ p : Pt 2, obsR2 p * obsR2 p = ∑ j, p j * p j := fun p => by
    rw [Fin.sum_univ_two]
    exact Real.mul_self_sqrt (by nlinarith [mul_self_nonneg (p 0), mul_self_nonneg (p 1)])
  refine obstacle_of hr (fun p => Real.sqrt_nonneg _) (fun p h => ?_) (fun p h => ?_)
  · rw [obsRhs2, if_pos h]
    push_cast
    ring
  · rw [obsRhs2, if_neg h]
    have h1 : obsR2 p * obsR2 p ≤ obsR0 * obsR0 := mul_self_le_mul_self (Real.sqrt_nonneg _) (not_lt.1 h)
    have h2 : (0 : ℝ) < obsR0 * obsR0 := by norm_num [obsR0]
    nlinarith [mul_nonneg h2.le (sub_nonneg.2 h1)]

theorem obstacle3 : Obstacle obsSol3 obsRhs3 := by
  have hr : ∀ p : Pt 3, obsR3 p * obsR3 p = ∑ j, p j * p j := fun p => by
    rw [Fin.sum_univ_three]
    exact Real.mul_self_sqrt (by nlinarith [mul_self_nonneg (p 0), mul_self_nonneg (p 1), mul_self_nonneg (p 2)])
  refine obstacle_of hr (fun p => Real.sqrt_nonneg _) (fun p h => ?_) (fun p h => ?_)
  · rw [obsRhs3, if_pos h]
    push_cast
    ring
  · rw [obsRhs3, if_neg h]
    have h1 : obsR3 p * obsR3 p ≤ obsR0 * obsR0 := mul_self_le_mul_self (Real.sqrt_nonneg _) (not_lt.1 h)
    have h2 : (0 : ℝ) < obsR0 * obsR0 := by norm_num [obsR0]
    nlinarith [mul_nonneg h2.le (sub_nonneg.2 h1)]

end Verif.Lemmas.TestData
