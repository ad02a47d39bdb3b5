import Verif.Lemmas.LocalMatrix
import Verif.Model.LocalMatrix
import Mathlib.Algebra.Order.Field.Basic
import Mathlib.LinearAlgebra.Matrix.Symmetric
import Mathlib.LinearAlgebra.Matrix.Notation
import Mathlib.LinearAlgebra.Matrix.NonsingularInverse
import Mathlib.Tactic.Ring
import Mathlib.Tactic.NormNum
import Mathlib.Tactic.Linarith
import Mathlib.Algebra.Order.Ring.Rat
import Mathlib.Algebra.Field.Rat
/-!
Property C53.
-/
namespace Verif.Props.LocalMatrix
open Verif.LocalMatrix Matrix

variable {K : Type} [Field K] {n N : Nat} {P : Type}

/-- C53. Mass and stiffness matrices are symmetric, whatever the points, weights and basis values. -/
theorem c53_symmetric (integrate : Nat → List (QP P K)) (degree di : Nat) (phi : P → Matrix (Fin n) (Fin N) K) :
    (massMatrix integrate degree di phi).IsSymm ∧ (stiffnessMatrix integrate degree phi).IsSymm := by
  refine ⟨accumulate_symm _ _ _ Matrix.isSymm_zero, ?_⟩
  unfold stiffnessMatrix
  split
  · exact accumulate_symm _ _ _ Matrix.isSymm_zero
  · exact Matrix.isSymm_zero

/-- C53. The quadratic form of the mass matrix is the quadrature of the squared norm of the function with the
given coefficients; likewise for the stiffness matrix and its gradient (degree at least one). -/
theorem c53_quadratic_form (integrate : Nat → List (QP P K)) (degree di : Nat) (phi : P → Matrix (Fin n) (Fin N) K)
    (v : Fin n → K) :
    (v ⬝ᵥ (massMatrix integrate degree di phi *ᵥ v) = ((integrate (2 * (degree + di))).map fun q =>
      q.w * (evalDofs v (phi q.pt) ⬝ᵥ evalDofs v (phi q.pt))).sum) ∧
    (1 ≤ degree → v ⬝ᵥ (stiffnessMatrix integrate degree phi *ᵥ v) = ((integrate (2 * (degree - 1))).map fun q =>
      q.w * (evalDofs v (phi q.pt) ⬝ᵥ evalDofs v (phi q.pt))).sum) := by
  constructor
  · unfold massMatrix; rw [accumulate_quad]; simp
  · intro hd
    have : degree > 0 := hd
    unfold stiffnessMatrix; rw [if_pos this, accumulate_quad]; simp

/-- C53. The stiffness matrix of a degree-zero basis is zero. -/
theorem c53_stiffness_zero (integrate : Nat → List (QP P K)) (phi : P → Matrix (Fin n) (Fin N) K) :
    stiffnessMatrix integrate 0 phi = 0 := by
  simp [stiffnessMatrix]

/-- C53. The right-hand side assembled for the function with coefficients `v` is the mass matrix times `v`;
so solving the projection system returns `v` when the mass matrix is invertible. -/
theorem c53_projection (integrate : Nat → List (QP P K)) (degree di : Nat) (phi : P → Matrix (Fin n) (Fin N) K)
    (v : Fin n → K) :
    makeRhs integrate degree di phi (fun p => evalDofs v (phi p)) = massMatrix integrate degree di phi *ᵥ v ∧
    (IsUnit (massMatrix integrate degree di phi).det → ∀ x : Fin n → K,
      massMatrix integrate degree di phi *ᵥ x = makeRhs integrate degree di phi (fun p => evalDofs v (phi p)) → x = v) := by
  have h1 : makeRhs integrate degree di phi (fun p => evalDofs v (phi p)) = massMatrix integrate degree di phi *ᵥ v :=
    accumulate_mulVec phi _ 0 0 v (by simp)
  refine ⟨h1, fun hdet x hx => ?_⟩
  rw [h1] at hx
  have := congrArg (fun y => (massMatrix integrate degree di phi)⁻¹ *ᵥ y) hx
  simpa [Matrix.mulVec_mulVec, Matrix.nonsing_inv_mul _ hdet] using this

/-- C53. With a symmetric material tensor the mass matrix is symmetric. -/
theorem c53_material_symmetric (integrate : Nat → List (QP P K)) (degree di : Nat) (phi : P → Matrix (Fin n) (Fin N) K)
    (mat : P → Matrix (Fin N) (Fin N) K) (hm : ∀ p, (mat p).IsSymm) : (massMatrixMat integrate degree di phi mat).IsSymm :=
  accumulateMat_symm _ _ hm _ _ Matrix.isSymm_zero

example : ∀ p : Nat, ((fun _ => 1 : Nat → Matrix (Fin 2) (Fin 2) ℚ) p).IsSymm := fun _ => Matrix.transpose_one

variable [LinearOrder K] [IsStrictOrderedRing K]

/-- C53. With non-negative weights both matrices are positive semi-definite. -/
theorem c53_psd (integrate : Nat → List (QP P K)) (degree di : Nat) (phi : P → Matrix (Fin n) (Fin N) K)
    (hw : ∀ d, ∀ q ∈ integrate d, 0 ≤ q.w) (v : Fin n → K) :
    0 ≤ v ⬝ᵥ (massMatrix integrate degree di phi *ᵥ v) ∧ 0 ≤ v ⬝ᵥ (stiffnessMatrix integrate degree phi *ᵥ v) := by
  have key : ∀ d, 0 ≤ ((integrate d).map fun q => q.w * (evalDofs v (phi q.pt) ⬝ᵥ evalDofs v (phi q.pt))).sum := by
    intro d
    apply sum_nonneg_of
    intro x hx
    obtain ⟨q, hq, rfl⟩ := List.mem_map.1 hx
    exact mul_nonneg (hw d q hq) (dot_self_nonneg _)
  refine ⟨by rw [(c53_quadratic_form integrate degree di phi v).1]; exact key _, ?_⟩
  by_cases hd : 1 ≤ degree
  · rw [(c53_quadratic_form integrate degree 0 phi v).2 hd]; exact key _
  · have : degree = 0 := by omega
    subst this
    rw [c53_stiffness_zero]; simp

/-- C53. With positive weights, `vᵀ M v = 0` exactly when the function with coefficients `v` vanishes at all
quadrature points. -/
theorem c53_kernel (integrate : Nat → List (QP P K)) (degree di : Nat) (phi : P → Matrix (Fin n) (Fin N) K)
    (hw : ∀ d, ∀ q ∈ integrate d, 0 < q.w) (v : Fin n → K) :
    v ⬝ᵥ (massMatrix integrate degree di phi *ᵥ v) = 0 ↔
      ∀ q ∈ integrate (2 * (degree + di)), evalDofs v (phi q.pt) = 0 := by
  rw [(c53_quadratic_form integrate degree di phi v).1]
  constructor
  · intro h q hq
    have := sum_eq_zero_of _ (by
      intro x hx
      obtain ⟨q, hq, rfl⟩ := List.mem_map.1 hx
      exact mul_nonneg (le_of_lt (hw _ q hq)) (dot_self_nonneg _)) h _ (List.mem_map_of_mem hq)
    rcases mul_eq_zero.1 this with h1 | h1
    · exact absurd h1 (hw _ q hq).ne'
    · exact (dot_self_eq_zero _).1 h1
  · intro h
    apply List.sum_eq_zero
    intro x hx
    obtain ⟨q, hq, rfl⟩ := List.mem_map.1 hx
    rw [h q hq]; simp

/-- A rule with one point of weight one satisfies the weight hypotheses. -/
example : ∀ d, ∀ q ∈ (fun _ : Nat => [(⟨0, 1⟩ : QP Nat ℚ)]) d, 0 < q.w := by
  intro d q hq
  simp at hq
  rw [hq]
  norm_num

/-- C53. With non-negative weights and positive semi-definite tensors the mass matrix with material tensor is
positive semi-definite. -/
theorem c53_material_psd (integrate : Nat → List (QP P K)) (degree di : Nat) (phi : P → Matrix (Fin n) (Fin N) K)
    (mat : P → Matrix (Fin N) (Fin N) K) (hw : ∀ d, ∀ q ∈ integrate d, 0 ≤ q.w)
    (hm : ∀ p (u : Fin N → K), 0 ≤ u ⬝ᵥ (mat p *ᵥ u)) (v : Fin n → K) :
    0 ≤ v ⬝ᵥ (massMatrixMat integrate degree di phi mat *ᵥ v) := by
  unfold massMatrixMat
  rw [accumulateMat_quad]
  simp only [Matrix.zero_mulVec, dotProduct_zero, zero_add]
  apply sum_nonneg_of
  intro x hx
  obtain ⟨q, hq, rfl⟩ := List.mem_map.1 hx
  exact mul_nonneg (hw _ q hq) (hm _ _)

example : ∀ (p : Nat) (u : Fin 2 → ℚ), 0 ≤ u ⬝ᵥ ((fun _ => 1 : Nat → Matrix (Fin 2) (Fin 2) ℚ) p *ᵥ u) := by
  intro p u
  simp only [Matrix.one_mulVec]
  exact dot_self_nonneg u

end Verif.Props.LocalMatrix
