import Verif.Lemmas.Util
/-! C07, C08, C09: power, factorial/binomial, basis sizes. -/
namespace Verif.Util

/-- C07 (recursive version): equals the n-th power in every monoid. -/
theorem c07_iexp_pow {R : Type} [Monoid R] (x : R) (n : Nat) : iexpPow x n = x ^ n := by
  induction n using Nat.strong_induction_on generalizing x with
  | _ n ih =>
    rw [iexpPow]
    split
    · next h => simp [h]
    · next h =>
      split
      · next h2 =>
        rw [ih _ (by omega), ← pow_two, ← pow_mul]
        congr 1; omega
      · next h2 =>
        rw [ih _ (by omega), ← pow_two, ← pow_mul, ← pow_succ']
        congr 1; omega

/-- C07 (iterative version): equals the n-th power in every commutative monoid. -/
theorem c07_iexp_pow_iter {R : Type} [CommMonoid R] (x : R) (n : Nat) : iexpPowIter x n = x ^ n := by
  have loop : ∀ n, 0 < n → ∀ x y : R, iexpPowLoop x y n = x ^ n * y := by
    intro n
    induction n using Nat.strong_induction_on with
    | _ n ih =>
      intro hn x y
      rw [iexpPowLoop]
      split
      · next h =>
        split
        · rw [ih _ (by omega) (by omega), ← pow_two, ← pow_mul]
          congr 2; omega
        · rw [ih _ (by omega) (by omega), ← pow_two, ← pow_mul, ← mul_assoc, ← pow_succ]
          congr 2; omega
      · have : n = 1 := by omega
        subst this; simp
  unfold iexpPowIter
  split
  · next h => simp [h]
  · next h => rw [loop n (by omega)]; simp

/-- C07 (cost): the recursive version performs at most `2 (log2 n + 1)` multiplications. -/
theorem c07_cost (n : Nat) : iexpPowMuls n ≤ 2 * (Nat.log2 n + 1) := by
  induction n using Nat.strong_induction_on with
  | _ n ih =>
    rw [iexpPowMuls]
    split
    · omega
    · next h =>
      by_cases h1 : n = 1
      · subst h1
        simp [iexpPowMuls]
      · have hlog : Nat.log2 n = Nat.log2 (n / 2) + 1 := by
          rw [Nat.log2_def, if_pos (by omega)]
        split
        · have := ih (n / 2) (by omega); omega
        · next h2 =>
          have hd : (n - 1) / 2 = n / 2 := by omega
          have := ih ((n - 1) / 2) (by omega)
          rw [hd] at this ⊢
          omega

example : iexpPow (3 : Int) 13 = 1594323 ∧ iexpPowIter (3 : Int) 13 = 1594323 := by
  rw [c07_iexp_pow, c07_iexp_pow_iter]; decide

/-- C08 (what holds): for k ≤ n ≤ 12 the result is the binomial coefficient. Missing: k > n, n > 12. -/
theorem c08_binomial_partial (n k : Nat) (hn : n ≤ 12) (hk : k ≤ n) :
    binomial n k = .ok (n.choose k) := by
  have : ∀ n ≤ 12, ∀ k ≤ n, binomial n k = .ok (n.choose k) := by decide +kernel
  exact this n hn k hk

example : binomial 12 6 = .ok 924 := by decide +kernel

/-- C08 (violation, k > n): the true coefficient is 0 but the code returns `n!/k!` rounded down,
which is 1 for `binomial(0,1)`. -/
theorem c08_violation_k_gt_n : binomial 0 1 = .ok 1 ∧ (0 : Nat).choose 1 = 0 := by decide

/-- C08 (violation, wrap-around): the first wrong value. -/
theorem c08_violation_wrap : binomial 13 1 ≠ .ok ((13 : Nat).choose 1) := by decide +kernel

theorem fact_zero_of_ge (n : Nat) (h : 34 ≤ n) : fact n = 0 := by
  induction n, h using Nat.le_induction with
  | base => decide +kernel
  | succ n hn ih => simp only [fact, ih]; split <;> omega

/-- C08 (undefined behaviour): `binomial(n,k)` divides by zero for every k ≥ 34. -/
theorem c08_division_by_zero (n k : Nat) (h : 34 ≤ k) : (binomial n k).IsUB := by
  have hk := fact_zero_of_ge k h
  unfold binomial
  split <;> simp [hk]

example : (binomial 40 35).IsUB := by decide +kernel

/-- C09 (scalar): the integer division is exact and the size is the binomial coefficient. -/
theorem c09_scalar (k d : Nat) :
    (basisLoop k d).2 ∣ (basisLoop k d).1 ∧ scalarBasisSize k d = (k + d).choose d :=
  basisLoop_div k d

/-- C09 (vector, matrix): the scalar size times the number of components. -/
theorem c09_vector_matrix (k sd m : Nat) :
    vectorBasisSize k sd m = m * (k + sd).choose sd ∧
    matrixBasisSize k sd m = m ^ 2 * (k + sd).choose sd := by
  have := (basisLoop_div k sd).2
  unfold vectorBasisSize matrixBasisSize
  rw [this]
  exact ⟨rfl, by ring⟩

/-- C09 (symmetric matrices): for matrices of order m = 2, 3 the size is m(m+1)/2 times the scalar
size, including degree 0. For every other order the code silently returns 0. -/
theorem c09_sym_matrix (k sd m : Nat) :
    ((m = 2 ∨ m = 3) → symMatrixBasisSize k sd m = (m * (m + 1) / 2) * (k + sd).choose sd) ∧
    (m ≠ 2 → m ≠ 3 → symMatrixBasisSize k sd m = 0) := by
  have := (basisLoop_div k sd).2
  constructor
  · rintro (rfl | rfl) <;> unfold symMatrixBasisSize <;> simp only [this] <;> split <;>
      simp_all
  · intro h2 h3
    unfold symMatrixBasisSize
    simp [h2, h3]

/-- C09 (new bases): the closed forms in dimensions 1, 2, 3 agree with the general formula. -/
theorem c09_new_bases (k : Nat) :
    sizeOfDegree1 k = (k + 1).choose 1 ∧ sizeOfDegree2 k = (k + 2).choose 2 ∧
    sizeOfDegree3 k = (k + 3).choose 3 := by
  refine ⟨by simp [sizeOfDegree1], ?_, ?_⟩
  · rw [← (basisLoop_div k 2).2]; simp [basisLoop, sizeOfDegree2, Nat.mul_comm]
  · rw [← (basisLoop_div k 3).2]
    simp only [basisLoop, sizeOfDegree3, Nat.one_mul]
    congr 1
    ring

/-- C09 (Raviart-Thomas): for degree k ≥ 1 the size is `d * C(k-1+d,d) + C(k-1+d-1,d-1)`, i.e. the
full vector polynomials of degree k-1 plus one function per homogeneous monomial of degree k-1. -/
theorem c09_raviart_thomas (k : Nat) :
    vectorBasisSizeRT (k + 1) 2 2 = .ok (2 * (k + 2).choose 2 + (k + 1).choose 1) ∧
    vectorBasisSizeRT (k + 1) 3 3 = .ok (3 * (k + 3).choose 3 + (k + 2).choose 2) ∧
    (vectorBasisSizeRT 0 2 2).Throws ∧ (vectorBasisSizeRT 0 3 3).Throws := by
  have e2 := (basisLoop_div k 2).2
  have e3 := (basisLoop_div k 3).2
  have d2 := (basisLoop_div k 2).1
  have d3 := (basisLoop_div k 3).1
  simp only [basisLoop, Nat.one_mul] at e2 e3 d2 d3
  obtain ⟨a, ha⟩ := d2
  obtain ⟨b, hb⟩ := d3
  rw [ha, Nat.mul_div_cancel_left _ (by decide)] at e2
  rw [hb, Nat.mul_div_cancel_left _ (by decide)] at e3
  refine ⟨?_, ?_, by decide, by decide⟩
  · simp only [vectorBasisSizeRT, ← e2, Nat.choose_one_right]
    simp only [Nat.add_eq_zero_iff, one_ne_zero, and_false, if_false]
    simp only [show ¬ (2 = 3 ∧ 2 = 3) by decide, if_false, true_and, if_true]
    congr 1
    nlinarith
  · simp only [vectorBasisSizeRT, ← e2, ← e3]
    simp only [Nat.add_eq_zero_iff, one_ne_zero, and_false, if_false, true_and, if_true]
    congr 1
    apply Nat.div_eq_of_eq_mul_right (by decide)
    nlinarith

example : vectorBasisSizeRT 1 3 3 = .ok 4 ∧ scalarBasisSize 3 2 = 10 ∧ symMatrixBasisSize 0 3 3 = 6 := by
  decide

/-- C09 (harmonic bases): size 2k+1 in 2D and (k+1)^2 in 3D, which is the number of monomials of
degree ≤ k minus the number of monomials of degree ≤ k-2 (the dimension of the harmonic space). -/
theorem c09_harmonic (k : Nat) :
    (∃ s, harmonicBasisSize (k + 2) 2 = .ok s ∧ s + (k + 2).choose 2 = (k + 2 + 2).choose 2) ∧
    (∃ s, harmonicBasisSize (k + 2) 3 = .ok s ∧ s + (k + 3).choose 3 = (k + 2 + 3).choose 3) ∧
    (∀ d, d ≠ 2 → d ≠ 3 → (harmonicBasisSize k d).Throws) := by
  have e2 := (basisLoop_div k 2).2
  have e3 := (basisLoop_div k 3).2
  have d2 := (basisLoop_div k 2).1
  have d3 := (basisLoop_div k 3).1
  have f2 := (basisLoop_div (k+2) 2).2
  have f3 := (basisLoop_div (k+2) 3).2
  have g2 := (basisLoop_div (k+2) 2).1
  have g3 := (basisLoop_div (k+2) 3).1
  simp only [basisLoop, Nat.one_mul] at e2 e3 d2 d3 f2 f3 g2 g3
  obtain ⟨a, ha⟩ := d2
  obtain ⟨b, hb⟩ := d3
  obtain ⟨c, hc⟩ := g2
  obtain ⟨d, hd⟩ := g3
  rw [ha, Nat.mul_div_cancel_left _ (by decide)] at e2
  rw [hb, Nat.mul_div_cancel_left _ (by decide)] at e3
  rw [hc, Nat.mul_div_cancel_left _ (by decide)] at f2
  rw [hd, Nat.mul_div_cancel_left _ (by decide)] at f3
  refine ⟨⟨_, rfl, ?_⟩, ⟨_, rfl, ?_⟩, ?_⟩
  · rw [← e2, ← f2]; nlinarith
  · rw [← e3, ← f3]; nlinarith
  · intro d h2 h3; simp [harmonicBasisSize, h2, h3]

end Verif.Util
