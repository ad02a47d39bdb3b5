import Verif.Model.Legendre
import Verif.Spec.Legendre
import Mathlib.Analysis.Calculus.Deriv.Pow
import Mathlib.Analysis.Calculus.Deriv.Mul
import Mathlib.Analysis.Calculus.Deriv.Add
import Mathlib.MeasureTheory.Integral.IntervalIntegral.Basic
import Mathlib.Analysis.SpecialFunctions.Integrals.Basic
import Mathlib.Tactic.IntervalCases
/-! Lemmas for Legendre.lean. -/
namespace Verif.Legendre
open Verif.Spec

theorem pows_eq (x : ℝ) (n : Nat) : pows x n = x ^ n := by
  induction n with
  | zero => simp [pows]
  | succ n ih => rw [pows, ih, pow_succ']

/-- The unnormalised derivative table as a function. -/
theorem deriv_table (x : ℝ) (d : Nat) (h : d ≤ 10) (h8 : d ≠ 8) (h10 : d ≠ 10) :
    ∃ v, derivSwitch (pows x) d = .ok v ∧ HasDerivAt (fun y => legendre y d) v x := by
  have hx := hasDerivAt_id x
  have key : ∀ c : Nat → ℝ, HasDerivAt (fun y => ∑ k ∈ Finset.range 11, c k * y ^ k)
      (∑ k ∈ Finset.range 11, c k * (k * x ^ (k - 1))) x := by
    intro c
    have := HasDerivAt.fun_sum (u := Finset.range 11) (A := fun k y => c k * y ^ k)
      (A' := fun k => c k * (k * x ^ (k - 1))) (x := x)
      (fun k _ => (hasDerivAt_pow k x).const_mul (c k))
    exact this
  have go : ∀ (c : Nat → ℝ) (v : ℝ), (∀ y, legendre y d = ∑ k ∈ Finset.range 11, c k * y ^ k) →
      v = ∑ k ∈ Finset.range 11, c k * (k * x ^ (k - 1)) → HasDerivAt (fun y => legendre y d) v x := by
    intro c v h1 h2
    rw [h2]
    exact (key c).congr_of_eventuallyEq (Filter.Eventually.of_forall h1)
  interval_cases d
  · refine ⟨_, rfl, go (fun k => ([1] : List ℝ).getD k 0) _ ?_ ?_⟩
    · intro y; simp only [Finset.sum_range_succ, Finset.sum_range_zero, legendre]; simp
    · simp [Finset.sum_range_succ]
  · refine ⟨_, rfl, go (fun k => ([0, 1] : List ℝ).getD k 0) _ ?_ ?_⟩
    · intro y; simp only [Finset.sum_range_succ, Finset.sum_range_zero, legendre]; simp
    · simp [Finset.sum_range_succ]
  · refine ⟨_, rfl, go (fun k => ([-1/2, 0, 3/2] : List ℝ).getD k 0) _ ?_ ?_⟩
    · intro y; simp only [Finset.sum_range_succ, Finset.sum_range_zero, legendre]; simp; ring
    · simp [Finset.sum_range_succ, pows_eq]; ring
  · refine ⟨_, rfl, go (fun k => ([0, -3/2, 0, 5/2] : List ℝ).getD k 0) _ ?_ ?_⟩
    · intro y; simp only [Finset.sum_range_succ, Finset.sum_range_zero, legendre]; simp; ring
    · simp [Finset.sum_range_succ, pows_eq]; ring
  · refine ⟨_, rfl, go (fun k => ([3/8, 0, -30/8, 0, 35/8] : List ℝ).getD k 0) _ ?_ ?_⟩
    · intro y; simp only [Finset.sum_range_succ, Finset.sum_range_zero, legendre]; simp; ring
    · simp [Finset.sum_range_succ, pows_eq]; ring
  · refine ⟨_, rfl, go (fun k => ([0, 15/8, 0, -70/8, 0, 63/8] : List ℝ).getD k 0) _ ?_ ?_⟩
    · intro y; simp only [Finset.sum_range_succ, Finset.sum_range_zero, legendre]; simp; ring
    · simp [Finset.sum_range_succ, pows_eq]; ring
  · refine ⟨_, rfl, go (fun k => ([-5/16, 0, 105/16, 0, -315/16, 0, 231/16] : List ℝ).getD k 0) _ ?_ ?_⟩
    · intro y; simp only [Finset.sum_range_succ, Finset.sum_range_zero, legendre]; simp; ring
    · simp [Finset.sum_range_succ, pows_eq]; ring
  · refine ⟨_, rfl, go (fun k => ([0, -35/16, 0, 315/16, 0, -693/16, 0, 429/16] : List ℝ).getD k 0) _ ?_ ?_⟩
    · intro y; simp only [Finset.sum_range_succ, Finset.sum_range_zero, legendre]; simp; ring
    · simp [Finset.sum_range_succ, pows_eq]; ring
  · exact absurd rfl h8
  · refine ⟨_, rfl, go (fun k => ([0, 315/128, 0, -4620/128, 0, 18018/128, 0, -25740/128, 0, 12155/128] : List ℝ).getD k 0) _ ?_ ?_⟩
    · intro y; simp only [Finset.sum_range_succ, Finset.sum_range_zero, legendre]; simp; ring
    · simp [Finset.sum_range_succ, pows_eq]; ring
  · exact absurd rfl h10

/-- Coefficient lists used to integrate. -/
def coeffs : Nat → List ℚ
  | 0 => [1]
  | 1 => [0, 1]
  | 2 => [-1/2, 0, 3/2]
  | 3 => [0, -3/2, 0, 5/2]
  | 4 => [3/8, 0, -30/8, 0, 35/8]
  | 5 => [0, 15/8, 0, -70/8, 0, 63/8]
  | 6 => [-5/16, 0, 105/16, 0, -315/16, 0, 231/16]
  | 7 => [0, -35/16, 0, 315/16, 0, -693/16, 0, 429/16]
  | 8 => [35/128, 0, -1260/128, 0, 6930/128, 0, -12012/128, 0, 6435/128]
  | 9 => [0, 315/128, 0, -4620/128, 0, 18018/128, 0, -25740/128, 0, 12155/128]
  | 10 => [-63/256, 0, 3465/256, 0, -30030/256, 0, 90090/256, 0, -109395/256, 0, 46189/256]
  | _ => []

theorem legendre_coeffs (y : ℝ) (d : Nat) (h : d ≤ 10) :
    legendre y d = ∑ k ∈ Finset.range 11, ((coeffs d).getD k 0 : ℝ) * y ^ k := by
  interval_cases d <;>
    (simp only [Finset.sum_range_succ, Finset.sum_range_zero, legendre, coeffs]; simp; try ring)

theorem gram_table : ∀ i ≤ 10, ∀ j ≤ 10,
    ((List.range 11).map fun a => ((List.range 11).map fun b =>
      (coeffs i).getD a 0 * (coeffs j).getD b 0 *
        (if (a + b) % 2 = 0 then 2 / ((a + b + 1 : Nat) : ℚ) else 0)).sum).sum =
    if i = j then 2 / ((2 * i + 1 : Nat) : ℚ) else 0 := by decide +kernel

theorem int_pow (n : Nat) : ∫ y in (-1 : ℝ)..1, y ^ n =
    ((if n % 2 = 0 then 2 / ((n + 1 : Nat) : ℚ) else 0 : ℚ) : ℝ) := by
  rw [integral_pow]
  split
  · next h =>
    have : Odd (n + 1) := by rw [Nat.odd_iff]; omega
    rw [this.neg_one_pow]; push_cast; norm_num
  · next h =>
    have : Even (n + 1) := by rw [Nat.even_iff]; omega
    rw [this.neg_one_pow]; simp

theorem list_sum_range (n : Nat) (f : Nat → ℚ) :
    (((List.range n).map f).sum : ℚ) = ∑ k ∈ Finset.range n, f k := by
  induction n with
  | zero => simp
  | succ n ih => rw [List.range_succ, Finset.sum_range_succ, ← ih]; simp

end Verif.Legendre
