import Verif.Lemmas.Legendre
import Verif.Model.Legendre
import Verif.Spec.Legendre
import Mathlib.Analysis.Calculus.Deriv.Pow
import Mathlib.Analysis.Calculus.Deriv.Mul
import Mathlib.Analysis.Calculus.Deriv.Add
import Mathlib.MeasureTheory.Integral.IntervalIntegral.Basic
import Mathlib.Analysis.SpecialFunctions.Integrals.Basic
import Mathlib.Tactic.IntervalCases
/-! C12, C56: 1D Legendre basis. -/
namespace Verif.Legendre
open Verif.Spec

/-- C12 (values): for every degree ≤ 10 the value is the Legendre polynomial of the recurrence,
normalised by `sqrt(2/(2d+1))`; degrees above 10 are rejected at construction. -/
theorem c12_values (x : ℝ) (d : Nat) :
    (d ≤ 10 → construct d = .ok d ∧
      evalPoly x d = .ok (legendre x d / √(2 / (2 * d + 1 : Nat)))) ∧
    (10 < d → (construct d).Throws) := by
  refine ⟨fun h => ⟨by simp [construct]; omega, ?_⟩, fun h => by simp [construct, h]⟩
  have : polySwitch (pows x) d = .ok (legendre x d) := by
    interval_cases d <;> simp only [polySwitch, legendre, pows_eq, Outcome.ok.injEq] <;>
      push_cast <;> ring
  rw [evalPoly, this]; rfl

/-- C12 (derivatives, what holds): for every degree ≤ 10 except 8 and 10 the returned derivative is
the derivative of the returned value. -/
theorem c12_derivatives_partial (x : ℝ) (d : Nat) (h : d ≤ 10) (h8 : d ≠ 8) (h10 : d ≠ 10) :
    ∃ (f : ℝ → ℝ) (v : ℝ), (∀ y, evalPoly y d = .ok (f y)) ∧ evalDeriv x d = .ok v ∧
      HasDerivAt f v x := by
  obtain ⟨v, h1, h2⟩ := deriv_table x d h h8 h10
  refine ⟨fun y => legendre y d / √(2 / (2 * d + 1 : Nat)), v / √(2 / (2 * d + 1 : Nat)),
    fun y => ((c12_values y d).1 h).2, by rw [evalDeriv, h1]; rfl, h2.div_const _⟩

/-- C12 (violation): at degrees 8 and 10 the returned derivative is wrong at every x ≠ 0
(coefficients 72012 instead of 72072, and 450450 instead of 540540). -/
theorem c12_derivative_violation (x : ℝ) (hx : x ≠ 0) (d : Nat) (hd : d = 8 ∨ d = 10)
    (f : ℝ → ℝ) (hf : ∀ y, evalPoly y d = .ok (f y)) (v : ℝ) (hv : evalDeriv x d = .ok v) :
    ¬ HasDerivAt f v x := by
  intro hder
  have hfe : f = fun y => legendre y d / √(2 / (2 * d + 1 : Nat)) := by
    funext y
    have h1 := hf y
    rw [((c12_values y d).1 (by omega)).2] at h1
    exact (Outcome.ok.inj h1).symm
  have hn : √((2 : ℝ) / (2 * d + 1 : Nat)) ≠ 0 := by
    apply (Real.sqrt_pos.mpr _).ne'
    positivity
  have key : ∀ c : Nat → ℝ, HasDerivAt (fun y => ∑ k ∈ Finset.range 11, c k * y ^ k)
      (∑ k ∈ Finset.range 11, c k * (k * x ^ (k - 1))) x := by
    intro c
    have := HasDerivAt.fun_sum (u := Finset.range 11) (A := fun k y => c k * y ^ k)
      (A' := fun k => c k * (k * x ^ (k - 1))) (x := x)
      (fun k _ => (hasDerivAt_pow k x).const_mul (c k))
    exact this
  have h5 : x ^ 5 ≠ 0 := pow_ne_zero _ hx
  rcases hd with rfl | rfl
  · have hl : (fun y => legendre y 8) = fun y => ∑ k ∈ Finset.range 11,
        (([35/128, 0, -1260/128, 0, 6930/128, 0, -12012/128, 0, 6435/128] : List ℝ).getD k 0) * y ^ k := by
      funext y; simp only [Finset.sum_range_succ, Finset.sum_range_zero, legendre]; simp; ring
    have h1 := key fun k => ([35/128, 0, -1260/128, 0, 6930/128, 0, -12012/128, 0, 6435/128] : List ℝ).getD k 0
    rw [← hl] at h1
    have h2 := h1.div_const (√((2 : ℝ) / (2 * 8 + 1 : Nat)))
    rw [hfe] at hder
    have h3 := h2.unique hder
    have hv' : v = (51480 * x ^ 7 - 72012 * x ^ 5 + 27720 * x ^ 3 - 2520 * x ^ 1) / 128 /
        √((2 : ℝ) / (2 * 8 + 1 : Nat)) := by
      have := hv; simp only [evalDeriv, derivSwitch, Outcome.bind_ok, pows_eq] at this
      exact (Outcome.ok.inj this).symm
    rw [hv', div_left_inj' hn] at h3
    simp [Finset.sum_range_succ] at h3
    apply h5
    linarith
  · have hl : (fun y => legendre y 10) = fun y => ∑ k ∈ Finset.range 11,
        (([-63/256, 0, 3465/256, 0, -30030/256, 0, 90090/256, 0, -109395/256, 0, 46189/256] : List ℝ).getD k 0) * y ^ k := by
      funext y; simp only [Finset.sum_range_succ, Finset.sum_range_zero, legendre]; simp; ring
    have h1 := key fun k => ([-63/256, 0, 3465/256, 0, -30030/256, 0, 90090/256, 0, -109395/256, 0, 46189/256] : List ℝ).getD k 0
    rw [← hl] at h1
    have h2 := h1.div_const (√((2 : ℝ) / (2 * 10 + 1 : Nat)))
    rw [hfe] at hder
    have h3 := h2.unique hder
    have hv' : v = (461890 * x ^ 9 - 875160 * x ^ 7 + 450450 * x ^ 5 - 120120 * x ^ 3 + 6930 * x ^ 1) / 256 /
        √((2 : ℝ) / (2 * 10 + 1 : Nat)) := by
      have := hv; simp only [evalDeriv, derivSwitch, Outcome.bind_ok, pows_eq] at this
      exact (Outcome.ok.inj this).symm
    rw [hv', div_left_inj' hn] at h3
    simp [Finset.sum_range_succ] at h3
    apply h5
    linarith

/-- The hypotheses of the derivative theorems are satisfiable, and the switches return values. -/
example : polySwitch (pows 1) 10 = .ok 1 ∧ derivSwitch (pows 1) 9 = .ok 45 := by
  constructor <;> simp only [polySwitch, derivSwitch, pows_eq] <;> norm_num

/-- C56: the functions returned by the 1D Legendre evaluation are orthonormal on [-1,1]. -/
theorem c56_orthonormal (i j : Nat) (hi : i ≤ 10) (hj : j ≤ 10) (f g : ℝ → ℝ)
    (hf : ∀ y, evalPoly y i = .ok (f y)) (hg : ∀ y, evalPoly y j = .ok (g y)) :
    ∫ y in (-1 : ℝ)..1, f y * g y = if i = j then 1 else 0 := by
  have hfe : ∀ y, f y = legendre y i / √(2 / (2 * i + 1 : Nat)) := fun y => by
    have h1 := hf y
    rw [((c12_values y i).1 hi).2] at h1
    exact (Outcome.ok.inj h1).symm
  have hge : ∀ y, g y = legendre y j / √(2 / (2 * j + 1 : Nat)) := fun y => by
    have h1 := hg y
    rw [((c12_values y j).1 hj).2] at h1
    exact (Outcome.ok.inj h1).symm
  have hint : ∫ y in (-1 : ℝ)..1, legendre y i * legendre y j =
      ((if i = j then 2 / ((2 * i + 1 : Nat) : ℚ) else 0 : ℚ) : ℝ) := by
    rw [← gram_table i hi j hj, list_sum_range]
    simp only [list_sum_range]
    push_cast
    simp only [legendre_coeffs _ i hi, legendre_coeffs _ j hj, Finset.sum_mul_sum]
    rw [intervalIntegral.integral_finsetSum]
    · apply Finset.sum_congr rfl
      intro a _
      rw [intervalIntegral.integral_finsetSum]
      · apply Finset.sum_congr rfl
        intro b _
        have : ∀ y : ℝ, ((coeffs i).getD a 0 : ℝ) * y ^ a * (((coeffs j).getD b 0 : ℝ) * y ^ b) =
            ((coeffs i).getD a 0 : ℝ) * ((coeffs j).getD b 0 : ℝ) * y ^ (a + b) := by
          intro y; rw [pow_add]; ring
        simp only [this]
        rw [intervalIntegral.integral_const_mul, int_pow]
        push_cast
        rfl
      · intro b _
        apply Continuous.intervalIntegrable
        fun_prop
    · intro a _
      apply Continuous.intervalIntegrable
      fun_prop
  simp only [hfe, hge]
  have : ∀ y, legendre y i / √(2 / (2 * i + 1 : Nat)) * (legendre y j / √(2 / (2 * j + 1 : Nat))) =
      (legendre y i * legendre y j) / (√(2 / (2 * i + 1 : Nat)) * √(2 / (2 * j + 1 : Nat))) := by
    intro y; rw [div_mul_div_comm]
  simp only [this]
  rw [intervalIntegral.integral_div, hint]
  split
  · next h =>
    subst h
    rw [Real.mul_self_sqrt (by positivity)]
    push_cast
    field_simp
  · simp

end Verif.Legendre
