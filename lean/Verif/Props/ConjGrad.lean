import Verif.Lemmas.ConjGrad
import Mathlib.Tactic.NormNum
import Mathlib.LinearAlgebra.Matrix.Notation
/-!
Properties C47 and C60.
-/
namespace Verif.Props.ConjGrad
open Verif.ConjGrad Verif.Spec.ConjGrad Matrix

variable {n : Nat}

/-- C47. Size mismatches are reported by `false`, and `x` is left alone. -/
theorem c47_sizes (p : Params) {rows cols nb nx : Nat} (A : Matrix (Fin rows) (Fin cols) ℝ) (b : Fin nb → ℝ)
    (x : Fin nx → ℝ) (h : rows ≠ cols ∨ nb ≠ cols ∨ nx ≠ cols) : cg p A b x = (false, some x) := by
  unfold cg
  by_cases h1 : rows = cols
  · by_cases h2 : nb = cols
    · have h3 : nx ≠ cols := by tauto
      simp [h1, h2, h3]
    · simp [h1, h2]
  · simp [h1]

example : (2 : Nat) ≠ 3 ∨ (2 : Nat) ≠ 3 ∨ (2 : Nat) ≠ 3 := by decide

/-- C47. With matching sizes the returned flag is `true` and `x` is the one of the iteration. -/
theorem c47_square (p : Params) (A : Matrix (Fin n) (Fin n) ℝ) (b x : Fin n → ℝ) :
    cg p A b x = (true, (core p A b x).map St.x) := by
  simp [cg]

/-- C47. At every iteration the residual vector is `b - A x`. -/
theorem c47_residual (p : Params) (A : Matrix (Fin n) (Fin n) ℝ) (b x : Fin n → ℝ) (k : Nat) (s : St n)
    (hs : steps A k (start p A b x) = some s) : s.r = b - A *ᵥ s.x := by
  induction k generalizing s with
  | zero => simp only [steps, Option.some.injEq] at hs; subst hs; exact start_residual p A b x
  | succ k ih =>
    rw [steps] at hs
    cases h : steps A k (start p A b x) with
    | none => rw [h] at hs; cases hs
    | some t => rw [h] at hs; exact step_residual A b t s hs (ih t h)

/-- C47. When the returned `x` is finite, the iteration count below the limit and the residual below
`rr_max`, the residual criterion holds for the true residual. -/
theorem c47_converged_partial (p : Params) (A : Matrix (Fin n) (Fin n) ℝ) (b x : Fin n → ℝ) (s : St n)
    (hs : core p A b x = some s) :
    s.r = b - A *ᵥ s.x ∧
    ∃ k, k ≤ maxIter p n ∧ steps A k (start p A b x) = some s ∧
      (k < maxIter p n → norm s.r < p.rrMax * norm (start p A b x).r →
        norm (b - A *ᵥ s.x) ≤ p.rrTol * norm (start p A b x).r) := by
  have hr := loop_residual p A b _ _ _ _ hs (start_residual p A b x)
  refine ⟨hr, ?_⟩
  obtain ⟨k, h1, h2, h3, _⟩ := loop_steps p A _ _ _ _ hs
  refine ⟨k, h1, h2, fun hk hmax => ?_⟩
  rw [← hr]
  have hno := h3 hk
  unfold goesOn at hno
  have h0 : 0 ≤ norm (start p A b x).r := Real.sqrt_nonneg _
  rcases eq_or_lt_of_le h0 with h00 | hpos
  · rw [← h00, mul_zero] at hmax
    exact absurd hmax (not_lt.2 (Real.sqrt_nonneg _))
  · by_contra hcon
    apply hno
    refine ⟨hpos.ne', ?_, ?_⟩
    · rw [gt_iff_lt, lt_div_iff₀ hpos]; exact not_le.1 hcon
    · rw [div_lt_iff₀ hpos]; exact hmax

/-- The defaults of `conjugated_gradient_params` with one iteration. -/
noncomputable def oneIter : Params := ⟨1 / 100000000, 20, 1, false⟩

/-- The matrix of the witnesses. -/
def wA (t : ℝ) : Matrix (Fin 2) (Fin 2) ℝ := !![1, 0; 0, t]

/-- C47 violation. With the iteration limit reached the function returns `true` although the residual is a
third of the initial one and the tolerance is 1e-8. -/
theorem c47_violation :
    cg oneIter (wA 2) ![1, 1] ![0, 0] = (true, some ![2 / 3, 2 / 3]) ∧
    ¬ norm (![1, 1] - wA 2 *ᵥ ![2 / 3, 2 / 3]) ≤ oneIter.rrTol * norm (![1, 1] : Fin 2 → ℝ) := by
  have hst : start oneIter (wA 2) ![1, 1] ![0, 0] = ⟨0, ![1, 1], ![1, 1]⟩ := by
    simp [start, oneIter]
  have hn : norm (![1, 1] : Fin 2 → ℝ) = Real.sqrt 2 := by
    unfold norm; congr 1; simp [Matrix.vec2_dotProduct]; norm_num
  have hpos : 0 < Real.sqrt 2 := Real.sqrt_pos.2 (by norm_num)
  constructor
  · rw [c47_square]
    have hg : goesOn oneIter (norm (![1, 1] : Fin 2 → ℝ)) (norm (![1, 1] : Fin 2 → ℝ)) := by
      rw [hn]
      refine ⟨hpos.ne', ?_, ?_⟩ <;> rw [div_self hpos.ne'] <;> norm_num [oneIter]
    have hs : step (wA 2) ⟨0, ![1, 1], ![1, 1]⟩ = some ⟨![2 / 3, 2 / 3], ![1 / 3, -1 / 3], ![4 / 9, -2 / 9]⟩ := by
      have hrr : (![1, 1] : Fin 2 → ℝ) ⬝ᵥ ![1, 1] = 2 := by simp [Matrix.vec2_dotProduct]; norm_num
      have hy : wA 2 *ᵥ ![1, 1] = ![1, 2] := by
        ext i; fin_cases i <;> simp [wA, Matrix.mulVec, Matrix.vec2_dotProduct]
      have hd : (![1, 1] : Fin 2 → ℝ) ⬝ᵥ ![1, 2] = 3 := by
        simp [Matrix.vec2_dotProduct]; norm_num
      have hr' : (![1, 1] : Fin 2 → ℝ) - (2 / 3 : ℝ) • ![1, 2] = ![1 / 3, -1 / 3] := by
        ext i; fin_cases i <;> norm_num
      have hrr' : (![1 / 3, -1 / 3] : Fin 2 → ℝ) ⬝ᵥ ![1 / 3, -1 / 3] = 2 / 9 := by
        simp [Matrix.vec2_dotProduct]; norm_num
      simp only [step, hy, hd, hrr, hr', hrr']
      rw [if_neg (by norm_num), if_neg (by norm_num)]
      simp only [Option.some.injEq, St.mk.injEq, true_and]
      constructor <;> ext i <;> fin_cases i <;> norm_num
    have hm : maxIter oneIter 2 = 1 := by simp [maxIter, oneIter]
    simp only [core, hst, hm, loop, if_pos hg, hs, Option.map_some]
  · have : (![1, 1] : Fin 2 → ℝ) - wA 2 *ᵥ ![2 / 3, 2 / 3] = (1 / 3 : ℝ) • ![1, -1] := by
      ext i; fin_cases i <;> norm_num [wA, Matrix.mulVec, Matrix.vec2_dotProduct]
    rw [this, hn]
    have h2 : norm ((1 / 3 : ℝ) • ![1, -1] : Fin 2 → ℝ) = 1 / 3 * Real.sqrt 2 := by
      unfold norm
      rw [smul_dotProduct, dotProduct_smul, smul_eq_mul, smul_eq_mul, ← mul_assoc,
        Real.sqrt_mul (by norm_num), Real.sqrt_mul_self (by norm_num)]
      congr 2
      simp [Matrix.vec2_dotProduct]; norm_num
    rw [h2]
    have : oneIter.rrTol = 1 / 100000000 := rfl
    rw [this]
    intro h
    nlinarith

/-- C47 violation. For an indefinite matrix the step length is a division by zero: the function returns
`true` and `x` is not finite. -/
theorem c47_breakdown_violation : cg oneIter (wA (-1)) ![1, 1] ![0, 0] = (true, none) := by
  have hst : start oneIter (wA (-1)) ![1, 1] ![0, 0] = ⟨0, ![1, 1], ![1, 1]⟩ := by
    simp [start, oneIter]
  have hn : norm (![1, 1] : Fin 2 → ℝ) = Real.sqrt 2 := by
    unfold norm; congr 1; simp [Matrix.vec2_dotProduct]; norm_num
  have hpos : 0 < Real.sqrt 2 := Real.sqrt_pos.2 (by norm_num)
  rw [c47_square]
  have hg : goesOn oneIter (norm (![1, 1] : Fin 2 → ℝ)) (norm (![1, 1] : Fin 2 → ℝ)) := by
    rw [hn]
    refine ⟨hpos.ne', ?_, ?_⟩ <;> rw [div_self hpos.ne'] <;> norm_num [oneIter]
  have hd : (![1, 1] : Fin 2 → ℝ) ⬝ᵥ (wA (-1) *ᵥ ![1, 1]) = 0 := by
    have hy : wA (-1) *ᵥ ![1, 1] = ![1, -1] := by
      ext i; fin_cases i <;> simp [wA, Matrix.mulVec, Matrix.vec2_dotProduct]
    rw [hy]
    simp [Matrix.vec2_dotProduct]
  have hs : step (wA (-1)) ⟨0, ![1, 1], ![1, 1]⟩ = none := by
    simp only [step, hd, if_true]
  have hm : maxIter oneIter 2 = 1 := by simp [maxIter, oneIter]
  simp only [core, hst, hm, loop, if_pos hg, hs, Option.map_none]

/-- C60. For a symmetric matrix, while no division by zero occurs, residuals are mutually orthogonal and
search directions mutually `A`-conjugate, over all pairs of iterations. -/
theorem c60_orthogonal (p : Params) (A : Matrix (Fin n) (Fin n) ℝ) (hA : A.IsSymm) (b x : Fin n → ℝ)
    (i j : Nat) (s t : St n) (hij : i < j) (hs : steps A i (start p A b x) = some s)
    (ht : steps A j (start p A b x) = some t) :
    t.r ⬝ᵥ s.r = 0 ∧ t.d ⬝ᵥ (A *ᵥ s.d) = 0 ∧ t.r ⬝ᵥ s.d = 0 := by
  have ho := steps_orth p A hA b x j t ht
  have e1 : (steps A i (start p A b x)).getD (start p A b x) = s := by rw [hs]; rfl
  have e2 : (steps A j (start p A b x)).getD (start p A b x) = t := by rw [ht]; rfl
  have h1 := ho.rr i j hij (le_refl _)
  have h2 := ho.dd i j hij (le_refl _)
  have h3 := ho.rd i j hij (le_refl _)
  simp only [e1, e2] at h1 h2 h3
  exact ⟨h1, h2, h3⟩

/-- C60. Each pass lowers the energy `½ xᵀAx - bᵀx` by half of `(r·r)² / (d·A d)`. -/
theorem c60_energy (p : Params) (A : Matrix (Fin n) (Fin n) ℝ) (hA : A.IsSymm) (b x : Fin n → ℝ)
    (k : Nat) (s t : St n) (hs : steps A k (start p A b x) = some s) (ht : step A s = some t) :
    energy A b t.x = energy A b s.x - (1 / 2) * ((s.r ⬝ᵥ s.r) ^ 2 / (s.d ⬝ᵥ (A *ᵥ s.d))) := by
  have ho := steps_orth p A hA b x k s hs
  have e1 : (steps A k (start p A b x)).getD (start p A b x) = s := by rw [hs]; rfl
  have hd := ho.diag k (le_refl _)
  simp only [e1] at hd
  have hr := c47_residual p A b x k s hs
  obtain ⟨h1, h2, h3, _, _⟩ := step_eqs A s t ht
  rw [h3]
  have hb : b ⬝ᵥ s.d = s.r ⬝ᵥ s.r + s.d ⬝ᵥ (A *ᵥ s.x) := by
    rw [← hd, dotProduct_comm b]
    conv_rhs => rw [hr]
    rw [dotProduct_sub]; ring
  unfold energy
  simp only [mulVec_add, mulVec_smul, add_dotProduct, dotProduct_add, smul_dotProduct, dotProduct_smul, smul_eq_mul,
    hb, symm_dot A hA s.x s.d]
  field_simp
  ring

/-- C60. For a symmetric positive definite matrix, a non-negative tolerance, an iteration limit that is
automatic or at least the number of unknowns, and residuals that stay below `rr_max`, the returned vector is
finite and meets the residual criterion, whatever the right-hand side and the initial guess. -/
theorem c60_solves (p : Params) (A : Matrix (Fin n) (Fin n) ℝ) (hA : A.IsSymm)
    (hpd : ∀ v : Fin n → ℝ, v ≠ 0 → 0 < v ⬝ᵥ (A *ᵥ v)) (b x : Fin n → ℝ) (htol : 0 ≤ p.rrTol)
    (hit : p.maxIter = 0 ∨ n ≤ p.maxIter)
    (hmax : ∀ k s, steps A k (start p A b x) = some s → (start p A b x).r ≠ 0 →
      norm s.r < p.rrMax * norm (start p A b x).r) :
    ∃ x', cg p A b x = (true, some x') ∧ norm (b - A *ᵥ x') ≤ p.rrTol * norm (b - A *ᵥ (start p A b x).x) := by
  have hne := loop_ne_none p A hA hpd b x htol (maxIter p n) 0 _ rfl
  rw [c47_square]
  cases hc : core p A b x with
  | none => exact absurd hc hne
  | some s =>
    refine ⟨s.x, rfl, ?_⟩
    obtain ⟨hr, k, h1, h2, h3⟩ := c47_converged_partial p A b x s hc
    rw [← start_residual]
    by_cases hk : k < maxIter p n
    · by_cases h0 : (start p A b x).r = 0
      · have hk0 := core_start_zero p A b x h0
        rw [hk0] at hc
        cases hc
        rw [← hr, h0]
        simp [norm]
      · exact h3 hk (hmax k s h2 h0)
    · have hfull : n ≤ k := by
        unfold maxIter at hk
        split at hk <;> omega
      have : s.r = 0 := core_full p A hA b x s k h2 hfull
      rw [← hr, this]
      have : norm (0 : Fin n → ℝ) = 0 := by simp [norm]
      rw [this]
      exact mul_nonneg htol (Real.sqrt_nonneg _)

/-- The hypotheses of `c60_solves` hold for the identity matrix. -/
example : (1 : Matrix (Fin 2) (Fin 2) ℝ).IsSymm ∧ ∀ v : Fin 2 → ℝ, v ≠ 0 → 0 < v ⬝ᵥ ((1 : Matrix (Fin 2) (Fin 2) ℝ) *ᵥ v) := by
  refine ⟨Matrix.transpose_one, fun v hv => ?_⟩
  rw [Matrix.one_mulVec]
  exact lt_of_le_of_ne (dot_self_nonneg v) fun h => hv ((dot_self_eq_zero v).1 h.symm)

end Verif.Props.ConjGrad
