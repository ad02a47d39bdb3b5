import Verif.Lemmas.Gauss
import Mathlib.Algebra.Polynomial.Derivative
import Mathlib.Analysis.Calculus.Deriv.Polynomial
import Mathlib.Topology.Algebra.Polynomial
import Mathlib.Tactic.LinearCombination
/-! Orthogonality of Legendre polynomials of every degree. -/
namespace Verif.GolubWelsch
open Polynomial

/-- Legendre polynomials. -/
noncomputable def P : ℕ → ℝ[X]
  | 0 => 1
  | 1 => X
  | n + 2 => C (1 / ((n : ℝ) + 2)) * ((2 * (n : ℝ[X]) + 3) * X * P (n + 1) - ((n : ℝ[X]) + 1) * P n)

theorem P_rec (n : ℕ) : ((n : ℝ[X]) + 2) * P (n + 2) = (2 * (n : ℝ[X]) + 3) * X * P (n + 1) - ((n : ℝ[X]) + 1) * P n := by
  rw [P, ← mul_assoc]
  have h : ((n : ℝ[X]) + 2) * C (1 / ((n : ℝ) + 2)) = 1 := by
    have e : ((n : ℝ[X]) + 2) = C ((n : ℝ) + 2) := by rw [map_add, map_natCast, map_ofNat]
    rw [e, ← C_mul, mul_one_div_cancel (by positivity), C_1]
  rw [h, one_mul]

theorem cast_ne (n : ℕ) : ((n : ℝ[X]) + 2) ≠ 0 := by
  have e : ((n : ℝ[X]) + 2) = C ((n : ℝ) + 2) := by rw [map_add, map_natCast, map_ofNat]
  rw [e, Ne, C_eq_zero]
  positivity

theorem P_deriv (n : ℕ) :
    derivative (P (n + 1)) = X * derivative (P n) + ((n : ℝ[X]) + 1) * P n ∧
    derivative (P n) = X * derivative (P (n + 1)) - ((n : ℝ[X]) + 1) * P (n + 1) := by
  induction n with
  | zero => simp [P]
  | succ n ih =>
    obtain ⟨ha, hb⟩ := ih
    have hr := P_rec n
    have hd : ((n : ℝ[X]) + 2) * derivative (P (n + 2)) =
        (2 * (n : ℝ[X]) + 3) * (P (n + 1) + X * derivative (P (n + 1))) - ((n : ℝ[X]) + 1) * derivative (P n) := by
      have := congrArg derivative hr
      simpa [derivative_mul, mul_add, mul_assoc] using this
    have h1 : derivative (P (n + 2)) = X * derivative (P (n + 1)) + ((n : ℝ[X]) + 2) * P (n + 1) := by
      refine mul_left_cancel₀ (cast_ne n) ?_
      linear_combination hd - ((n : ℝ[X]) + 1) * hb
    refine ⟨by push_cast; linear_combination h1, ?_⟩
    push_cast
    linear_combination -X * h1 + hr + X * hb + ha

/-- Integral over the reference segment. -/
noncomputable def I (r : ℝ[X]) : ℝ := ∫ x in (-1 : ℝ)..1, r.eval x

theorem integrable (r : ℝ[X]) : IntervalIntegrable (fun x => r.eval x) MeasureTheory.volume (-1) 1 :=
  r.continuous.intervalIntegrable _ _

theorem I_add (r s : ℝ[X]) : I (r + s) = I r + I s := by
  simp only [I, eval_add]
  exact intervalIntegral.integral_add (integrable r) (integrable s)

theorem I_C (c : ℝ) (r : ℝ[X]) : I (C c * r) = c * I r := by
  simp only [I, eval_mul, eval_C]
  exact intervalIntegral.integral_const_mul _ _

theorem I_deriv (r : ℝ[X]) : I (derivative r) = r.eval 1 - r.eval (-1) :=
  intervalIntegral.integral_eq_sub_of_hasDerivAt (fun x _ => r.hasDerivAt x) (integrable _)

theorem P_ode (n : ℕ) :
    derivative ((X ^ 2 - 1) * derivative (P n)) = C ((n : ℝ) * (n + 1)) * P n := by
  cases n with
  | zero => simp [P]
  | succ n =>
    obtain ⟨ha, hb⟩ := P_deriv n
    have h1 : (X ^ 2 - 1) * derivative (P (n + 1)) = ((n : ℝ[X]) + 1) * (X * P (n + 1) - P n) := by
      linear_combination -X * hb - ha
    rw [h1]
    simp only [derivative_mul, derivative_add, derivative_sub, derivative_X, derivative_natCast, derivative_one]
    simp only [map_mul, map_add, map_natCast, map_one, Nat.cast_add, Nat.cast_one]
    linear_combination -((n : ℝ[X]) + 1) * hb

theorem P_orth (m n : ℕ) (h : m ≠ n) : I (P m * P n) = 0 := by
  have e : C ((m : ℝ) * (m + 1) - n * (n + 1)) * (P m * P n) =
      derivative ((X ^ 2 - 1) * (derivative (P m) * P n - derivative (P n) * P m)) := by
    have h1 := P_ode m
    have h2 := P_ode n
    have e2 : (X ^ 2 - 1) * (derivative (P m) * P n - derivative (P n) * P m) =
      ((X ^ 2 - 1) * derivative (P m)) * P n - ((X ^ 2 - 1) * derivative (P n)) * P m := by ring
    rw [e2, derivative_sub, derivative_mul, h1, derivative_mul, h2, C_sub]
    ring
  have h3 := congrArg I e
  rw [I_C, I_deriv] at h3
  simp only [eval_mul, eval_sub, eval_pow, eval_X, eval_one] at h3
  norm_num at h3
  rcases h3 with h3 | h3
  · exfalso
    apply h
    have : ((m : ℝ) - n) * (m + n + 1) = 0 := by linear_combination h3
    rcases mul_eq_zero.1 this with h4 | h4
    · exact_mod_cast sub_eq_zero.1 h4
    · have : (0 : ℝ) < (m : ℝ) + n + 1 := by positivity
      linarith
  · exact h3

theorem P_norm (n : ℕ) : (2 * (n : ℝ) + 1) * I (P n * P n) = 2 := by
  induction n with
  | zero => simp [P, I]; norm_num
  | succ n ih =>
    have key : (2 * (n : ℝ) + 3) * I (P (n + 1) * P (n + 1)) = (2 * (n : ℝ) + 1) * I (P n * P n) := by
      cases n with
      | zero =>
        have h1 : I (X * X) = 2 / 3 := by
          have : (X * X : ℝ[X]) = X ^ 2 := by ring
          rw [this, I]
          simp only [eval_pow, eval_X]
          rw [Quad.integral_mom]
          norm_num [Quad.mom]
        have h2 : I (1 * 1) = 2 := by simp [I]; norm_num
        simp only [P]
        rw [h1, h2]
        norm_num
      | succ m =>
        have r1 : C ((m : ℝ) + 2) * (P (m + 2) * P (m + 2)) + C ((m : ℝ) + 1) * (P m * P (m + 2)) =
            C (2 * (m : ℝ) + 3) * (X * P (m + 1) * P (m + 2)) := by
          simp only [map_add, map_mul, map_natCast, map_one, map_ofNat]
          linear_combination P (m + 2) * P_rec m
        have r2 : C ((m : ℝ) + 3) * (P (m + 3) * P (m + 1)) + C ((m : ℝ) + 2) * (P (m + 1) * P (m + 1)) =
            C (2 * (m : ℝ) + 5) * (X * P (m + 1) * P (m + 2)) := by
          have h := P_rec (m + 1)
          push_cast at h
          simp only [map_add, map_mul, map_natCast, map_ofNat]
          linear_combination P (m + 1) * h
        have e1 := congrArg I r1
        have e2 := congrArg I r2
        rw [I_add, I_C, I_C, I_C] at e1 e2
        rw [P_orth m (m + 2) (by omega)] at e1
        rw [P_orth (m + 3) (m + 1) (by omega)] at e2
        have hp : (0 : ℝ) < (m : ℝ) + 2 := by positivity
        refine mul_left_cancel₀ hp.ne' ?_
        push_cast
        linear_combination (2 * (m : ℝ) + 5) * e1 - (2 * (m : ℝ) + 3) * e2
    push_cast
    linear_combination key + ih

end Verif.GolubWelsch
