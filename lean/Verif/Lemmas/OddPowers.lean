import Mathlib.RingTheory.PowerSeries.Derivative
import Mathlib.RingTheory.PowerSeries.WellKnown
import Mathlib.Algebra.Polynomial.Reverse
import Mathlib.Algebra.Polynomial.Derivative
import Mathlib.Algebra.Polynomial.Eval.Degree
import Mathlib.Tactic.Ring
import Mathlib.Tactic.LinearCombination
/-!
Generating series of the powers of the odd numbers: the identity behind the Grundmann-Möller rules.
-/
open PowerSeries
namespace Verif.Lemmas.OddPowers

/-- Generating series of the powers of the odd numbers. -/
noncomputable def S (a : ℕ) : ℚ⟦X⟧ := PowerSeries.mk fun b => (2 * (b : ℚ) + 1) ^ a

/-- The polynomials with `S a * (1 - X)^(a+1) = P a`. -/
noncomputable def P : ℕ → Polynomial ℚ
  | 0 => 1
  | a + 1 => 2 * Polynomial.X * (1 - Polynomial.X) * (P a).derivative +
      (1 + Polynomial.C (2 * (a : ℚ) + 1) * Polynomial.X) * P a

theorem S_succ (a : ℕ) : S (a + 1) = 2 * X * d⁄dX ℚ (S a) + S a := by
  ext b
  have h2 : (2 : ℚ⟦X⟧) * X * d⁄dX ℚ (S a) = PowerSeries.C (2 : ℚ) * (X * d⁄dX ℚ (S a)) := by
    rw [map_ofNat PowerSeries.C 2, mul_assoc]
  rw [map_add, h2, PowerSeries.coeff_C_mul]
  cases b with
  | zero => simp [S]
  | succ b =>
    rw [PowerSeries.coeff_succ_X_mul, PowerSeries.coeff_derivative]
    simp only [S, PowerSeries.coeff_mk]
    push_cast
    ring

theorem S_P (a : ℕ) : S a * (1 - X) ^ (a + 1) = (P a : ℚ⟦X⟧) := by
  induction a with
  | zero =>
    have : S 0 = PowerSeries.mk 1 := by ext; simp [S]
    rw [this, zero_add, pow_one, mk_one_mul_one_sub_eq_one]
    simp [P]
  | succ a ih =>
    have hd := congrArg (fun s => d⁄dX ℚ s) ih
    simp only [Derivation.leibniz, Derivation.leibniz_pow, map_sub, Derivation.map_one_eq_zero,
      PowerSeries.derivative_X, smul_eq_mul] at hd
    rw [PowerSeries.derivative_coe] at hd
    have e : (P (a + 1) : ℚ⟦X⟧) = 2 * X * (1 - X) * ((Polynomial.derivative (P a) : Polynomial ℚ) : ℚ⟦X⟧) +
      (1 + PowerSeries.C (2 * (a : ℚ) + 1) * X) * (P a : ℚ⟦X⟧) := by
      simp only [P, Polynomial.coe_add, Polynomial.coe_mul, Polynomial.coe_X, Polynomial.coe_C, Polynomial.coe_one,
        Polynomial.coe_sub]
      have : ((2 : Polynomial ℚ) : ℚ⟦X⟧) = 2 := by
        have := Polynomial.coe_C (R := ℚ) 2
        rwa [map_ofNat Polynomial.C 2, map_ofNat PowerSeries.C 2] at this
      rw [this]
    rw [e, ← hd, ← ih, S_succ]
    have hC : (PowerSeries.C (2 * (a : ℚ) + 1)) = (2 * (a : ℚ⟦X⟧) + 1) := by
      rw [map_add, map_mul, map_ofNat PowerSeries.C 2, map_natCast, map_one]
    rw [hC]
    simp only [nsmul_eq_mul, Nat.add_sub_cancel]
    push_cast
    ring

theorem P_coeff (a k : ℕ) : (P (a + 1)).coeff (k + 1) =
    (2 * (k : ℚ) + 3) * (P a).coeff (k + 1) + (2 * (a : ℚ) - 2 * k + 1) * (P a).coeff k := by
  have e : P (a + 1) = Polynomial.C 2 * (Polynomial.X * (P a).derivative) -
     Polynomial.C 2 * (Polynomial.X * (Polynomial.X * (P a).derivative)) + P a +
      Polynomial.C (2 * (a : ℚ) + 1) * (Polynomial.X * P a) := by
    have : (Polynomial.C (2 : ℚ)) = 2 := map_ofNat Polynomial.C 2
    rw [P, this]; ring
  rw [e]
  simp only [Polynomial.coeff_add, Polynomial.coeff_sub, Polynomial.coeff_C_mul, Polynomial.coeff_X_mul,
    Polynomial.coeff_derivative]
  cases k with
  | zero => simp; ring
  | succ k =>
    rw [Polynomial.coeff_X_mul, Polynomial.coeff_derivative]
    push_cast
    ring

theorem P_coeff_zero (a : ℕ) : (P a).coeff 0 = 1 := by
  induction a with
  | zero => simp [P]
  | succ a ih => simp [P, ih]

theorem P_coeff_big (a k : ℕ) (h : a < k) : (P a).coeff k = 0 := by
  induction a generalizing k with
  | zero => rw [P, Polynomial.coeff_one, if_neg (by omega)]
  | succ a ih =>
    obtain ⟨k, rfl⟩ : ∃ m, k = m + 1 := ⟨k - 1, by omega⟩
    rw [P_coeff, ih (k + 1) (by omega), ih k (by omega)]
    ring

theorem P_degree (a : ℕ) : (P a).natDegree ≤ a :=
  Polynomial.natDegree_le_iff_coeff_eq_zero.2 fun k h => P_coeff_big a k h

theorem P_pal (a k : ℕ) (h : k ≤ a) : (P a).coeff k = (P a).coeff (a - k) := by
  induction a generalizing k with
  | zero => rw [Nat.le_zero.1 h]
  | succ a ih =>
    have top : (P (a + 1)).coeff (a + 1) = 1 := by
      rw [P_coeff, P_coeff_big a (a + 1) (by omega), ih a le_rfl, Nat.sub_self, P_coeff_zero]
      ring
    rcases Nat.eq_zero_or_pos k with rfl | hk
    · rw [P_coeff_zero, Nat.sub_zero, top]
    · obtain ⟨k, rfl⟩ : ∃ m, k = m + 1 := ⟨k - 1, by omega⟩
      rcases Nat.lt_or_ge k a with hk' | hk'
      · obtain ⟨m, hm⟩ : ∃ m, a = k + 1 + m := ⟨a - (k + 1), by omega⟩
        rw [show a + 1 - (k + 1) = m + 1 by omega, P_coeff, P_coeff, ih (k + 1) (by omega), ih k (by omega),
          show a - (k + 1) = m by omega, show a - k = m + 1 by omega]
        subst hm; push_cast; ring
      · have : k = a := by omega
        subst this
        rw [Nat.sub_self, P_coeff_zero, top]

theorem P_one (a : ℕ) : (P a).eval 1 = 2 ^ a * (a.factorial : ℚ) := by
  induction a with
  | zero => simp [P]
  | succ a ih =>
    simp only [P, Polynomial.eval_add, Polynomial.eval_mul, Polynomial.eval_sub, Polynomial.eval_X,
      Polynomial.eval_one, Polynomial.eval_C, ih, Nat.factorial_succ]
    push_cast; ring

theorem P_reflect (a : ℕ) : (P a).reflect a = P a := by
  ext k
  rw [Polynomial.coeff_reflect]
  by_cases h : k ≤ a
  · rw [Polynomial.revAt_le h, ← P_pal a k h]
  · rw [Polynomial.revAt_eq_self_of_lt (by omega)]

/-- Products of the polynomials. -/
noncomputable def PP (l : List ℕ) : Polynomial ℚ := (l.map P).prod
/-- Products of the series. -/
noncomputable def SS (l : List ℕ) : ℚ⟦X⟧ := (l.map S).prod

theorem PP_degree (l : List ℕ) : (PP l).natDegree ≤ l.sum := by
  induction l with
  | nil => simp [PP]
  | cons a l ih =>
    simp only [PP, List.map_cons, List.prod_cons, List.sum_cons] at ih ⊢
    exact Polynomial.natDegree_mul_le_of_le (P_degree a) ih

theorem PP_reflect (l : List ℕ) : (PP l).reflect l.sum = PP l := by
  induction l with
  | nil => simp [PP]
  | cons a l ih =>
    have := Polynomial.reflect_mul (P a) (PP l) (P_degree a) (PP_degree l)
    simp only [PP, List.map_cons, List.prod_cons, List.sum_cons] at ih this ⊢
    rw [this, P_reflect, ih]

theorem PP_one (l : List ℕ) : (PP l).eval 1 = 2 ^ l.sum * ((l.map Nat.factorial).prod : ℕ) := by
  induction l with
  | nil => simp [PP]
  | cons a l ih =>
    simp only [PP, List.map_cons, List.prod_cons, List.sum_cons, Polynomial.eval_mul, P_one] at ih ⊢
    rw [ih]; push_cast; ring

theorem SS_PP (l : List ℕ) : SS l * (1 - X) ^ (l.sum + l.length) = (PP l : ℚ⟦X⟧) := by
  induction l with
  | nil => simp [SS, PP]
  | cons a l ih =>
    simp only [SS, PP, List.map_cons, List.prod_cons, List.sum_cons, List.length_cons, Polynomial.coe_mul] at ih ⊢
    rw [← ih, ← S_P]
    ring

/-- Half of the sum of the coefficients. -/
theorem PP_half (l : List ℕ) (s : ℕ) (h : l.sum = 2 * s + 1) :
    ∑ k ∈ Finset.range (s + 1), (PP l).coeff k = 2 ^ (2 * s) * ((l.map Nat.factorial).prod : ℕ) := by
  have tot : ∑ k ∈ Finset.range (2 * (s + 1)), (PP l).coeff k = 2 ^ (2 * s + 1) * ((l.map Nat.factorial).prod : ℕ) := by
    rw [← h, ← PP_one, Polynomial.eval_eq_sum_range' (n := 2 * (s + 1)) (by have := PP_degree l; omega)]
    simp
  have sym : ∑ k ∈ Finset.range (s + 1), (PP l).coeff (s + 1 + k) = ∑ k ∈ Finset.range (s + 1), (PP l).coeff k := by
    rw [← Finset.sum_range_reflect]
    refine Finset.sum_congr rfl fun k hk => ?_
    have hk := Finset.mem_range.1 hk
    have e := congrArg (fun p => Polynomial.coeff p k) (PP_reflect l)
    simp only [Polynomial.coeff_reflect] at e
    rw [Polynomial.revAt_le (by omega)] at e
    rw [← e]; congr 1; omega
  rw [two_mul (s + 1), Finset.sum_range_add, sym] at tot
  rw [pow_succ] at tot
  linarith

theorem coeff_pow (N i : ℕ) : coeff i ((1 - X : ℚ⟦X⟧) ^ N) = (-1) ^ i * (N.choose i : ℚ) := by
  induction N generalizing i with
  | zero => cases i <;> simp [coeff_one]
  | succ N ih =>
    rw [pow_succ, mul_sub, mul_one, map_sub, ih]
    cases i with
    | zero => simp
    | succ i =>
      rw [coeff_succ_mul_X, ih, Nat.choose_succ_succ]
      push_cast; ring

/-- The alternating sum of the coefficients of a product of the series. -/
theorem alternating (l : List ℕ) (s m : ℕ) (h : l.sum = 2 * s + 1) (hm : l.length = m + 1) :
    ∑ i ∈ Finset.range (s + 1), (-1) ^ i * ((l.sum + m).choose i : ℚ) * coeff (s - i) (SS l) =
      2 ^ (2 * s) * ((l.map Nat.factorial).prod : ℕ) := by
  rw [← PP_half l s h]
  have e : SS l * (1 - X) ^ (l.sum + m) = (PP l : ℚ⟦X⟧) * PowerSeries.mk 1 := by
    rw [← SS_PP, hm, ← add_assoc, pow_succ, mul_assoc, mul_assoc, mul_comm (1 - X) (PowerSeries.mk 1),
      mk_one_mul_one_sub_eq_one, mul_one]
  have ec := congrArg (coeff s) e
  rw [mul_comm (SS l), coeff_mul, coeff_mul, Finset.Nat.sum_antidiagonal_eq_sum_range_succ_mk,
    Finset.Nat.sum_antidiagonal_eq_sum_range_succ_mk] at ec
  simp only [coeff_mk, Pi.one_apply, mul_one, Polynomial.coeff_coe] at ec
  rw [← ec]
  refine Finset.sum_congr rfl fun i _ => ?_
  congr 1
  exact (coeff_pow _ _).symm
end Verif.Lemmas.OddPowers
