import Verif.Model.LocalMatrix
import Mathlib.Algebra.Order.Field.Basic
import Mathlib.LinearAlgebra.Matrix.Symmetric
import Mathlib.LinearAlgebra.Matrix.Notation
import Mathlib.LinearAlgebra.Matrix.NonsingularInverse
import Mathlib.Tactic.Ring
import Mathlib.Tactic.NormNum
import Mathlib.Tactic.Linarith
import Mathlib.Algebra.Order.Ring.Rat
import Mathlib.Algebra.Field.Rat
/-! Lemmas for LocalMatrix.lean. -/
namespace Verif.Props.LocalMatrix
open Verif.LocalMatrix Matrix

variable {K : Type} [Field K] {n N : Nat} {P : Type}

theorem accumulate_symm (ev : P → Matrix (Fin n) (Fin N) K) (qs : List (QP P K)) (ret : Matrix (Fin n) (Fin n) K)
    (h : ret.IsSymm) : (accumulate ev qs ret).IsSymm := by
  induction qs generalizing ret with
  | nil => exact h
  | cons q qs ih =>
    apply ih
    apply h.add
    unfold outer Matrix.IsSymm
    rw [Matrix.transpose_mul, Matrix.transpose_transpose, Matrix.transpose_smul, Matrix.mul_smul, Matrix.smul_mul]

/-- The quadratic form of one term. -/
theorem outer_quad (w : K) (A : Matrix (Fin n) (Fin N) K) (v : Fin n → K) :
    v ⬝ᵥ (outer (w • A) A *ᵥ v) = w * (evalDofs v A ⬝ᵥ evalDofs v A) := by
  unfold outer evalDofs
  rw [Matrix.smul_mul, Matrix.smul_mulVec, dotProduct_smul, ← Matrix.mulVec_mulVec, Matrix.dotProduct_mulVec,
    ← Matrix.mulVec_transpose, smul_eq_mul]

theorem accumulate_quad (ev : P → Matrix (Fin n) (Fin N) K) (qs : List (QP P K)) (ret : Matrix (Fin n) (Fin n) K)
    (v : Fin n → K) : v ⬝ᵥ (accumulate ev qs ret *ᵥ v) =
      v ⬝ᵥ (ret *ᵥ v) + (qs.map fun q => q.w * (evalDofs v (ev q.pt) ⬝ᵥ evalDofs v (ev q.pt))).sum := by
  induction qs generalizing ret with
  | nil => simp [accumulate]
  | cons q qs ih =>
    rw [accumulate, ih, Matrix.add_mulVec, dotProduct_add, outer_quad]
    simp only [List.map_cons, List.sum_cons]
    ring

theorem accumulate_mulVec (ev : P → Matrix (Fin n) (Fin N) K) (qs : List (QP P K)) (ret : Matrix (Fin n) (Fin n) K)
    (r : Fin n → K) (v : Fin n → K) (h : r = ret *ᵥ v) :
    accumulateRhs ev (fun p => evalDofs v (ev p)) qs r = accumulate ev qs ret *ᵥ v := by
  induction qs generalizing ret r with
  | nil => simpa [accumulateRhs, accumulate] using h
  | cons q qs ih =>
    rw [accumulateRhs, accumulate]
    apply ih
    rw [h, Matrix.add_mulVec]
    unfold outer evalDofs
    rw [Matrix.smul_mul, Matrix.smul_mulVec, ← Matrix.mulVec_mulVec, Matrix.mulVec_smul]

theorem matTerm (w : K) (A : Matrix (Fin n) (Fin N) K) (M : Matrix (Fin N) (Fin N) K) :
    outer A (A * (w • M)ᵀ) = w • (A * M * Aᵀ) := by
  unfold outer
  rw [Matrix.transpose_mul, Matrix.transpose_transpose, Matrix.smul_mul, Matrix.mul_smul, Matrix.mul_assoc]

theorem accumulateMat_symm (ev : P → Matrix (Fin n) (Fin N) K) (mat : P → Matrix (Fin N) (Fin N) K)
    (hm : ∀ p, (mat p).IsSymm) (qs : List (QP P K)) (ret : Matrix (Fin n) (Fin n) K)
    (h : ret.IsSymm) : (accumulateMat ev mat qs ret).IsSymm := by
  induction qs generalizing ret with
  | nil => exact h
  | cons q qs ih =>
    apply ih
    apply h.add
    rw [matTerm]
    apply Matrix.IsSymm.smul
    unfold Matrix.IsSymm
    rw [Matrix.transpose_mul, Matrix.transpose_mul, Matrix.transpose_transpose, (hm q.pt).eq, Matrix.mul_assoc]

theorem accumulateMat_quad (ev : P → Matrix (Fin n) (Fin N) K) (mat : P → Matrix (Fin N) (Fin N) K) (qs : List (QP P K))
    (ret : Matrix (Fin n) (Fin n) K) (v : Fin n → K) : v ⬝ᵥ (accumulateMat ev mat qs ret *ᵥ v) =
      v ⬝ᵥ (ret *ᵥ v) + (qs.map fun q => q.w * (evalDofs v (ev q.pt) ⬝ᵥ (mat q.pt *ᵥ evalDofs v (ev q.pt)))).sum := by
  induction qs generalizing ret with
  | nil => simp [accumulateMat]
  | cons q qs ih =>
    rw [accumulateMat, ih, Matrix.add_mulVec, dotProduct_add, matTerm]
    have : v ⬝ᵥ ((q.w • (ev q.pt * mat q.pt * (ev q.pt)ᵀ)) *ᵥ v) =
        q.w * (evalDofs v (ev q.pt) ⬝ᵥ (mat q.pt *ᵥ evalDofs v (ev q.pt))) := by
      unfold evalDofs
      rw [Matrix.smul_mulVec, dotProduct_smul, smul_eq_mul, ← Matrix.mulVec_mulVec, ← Matrix.mulVec_mulVec,
        Matrix.dotProduct_mulVec, ← Matrix.mulVec_transpose]
    rw [this]
    simp only [List.map_cons, List.sum_cons]
    ring

variable [LinearOrder K] [IsStrictOrderedRing K]

theorem dot_self_nonneg (v : Fin n → K) : 0 ≤ v ⬝ᵥ v :=
  Finset.sum_nonneg fun i _ => mul_self_nonneg (v i)

theorem dot_self_eq_zero (v : Fin n → K) : v ⬝ᵥ v = 0 ↔ v = 0 := by
  constructor
  · intro h
    have := (Finset.sum_eq_zero_iff_of_nonneg (fun i _ => mul_self_nonneg (v i))).1 h
    funext i
    exact mul_self_eq_zero.1 (this i (Finset.mem_univ i))
  · rintro rfl; simp

theorem sum_nonneg_of (l : List K) (h : ∀ x ∈ l, 0 ≤ x) : 0 ≤ l.sum := by
  induction l with
  | nil => simp
  | cons x l ih =>
    rw [List.sum_cons]
    exact add_nonneg (h x (by simp)) (ih fun y hy => h y (by simp [hy]))

theorem sum_eq_zero_of (l : List K) (h : ∀ x ∈ l, 0 ≤ x) (h0 : l.sum = 0) : ∀ x ∈ l, x = 0 := by
  induction l with
  | nil => simp
  | cons x l ih =>
    rw [List.sum_cons] at h0
    have hx := h x (by simp)
    have hl := sum_nonneg_of l fun y hy => h y (by simp [hy])
    have hx0 : x = 0 := by linarith
    have hl0 : l.sum = 0 := by linarith
    intro y hy
    rw [List.mem_cons] at hy
    rcases hy with rfl | hy
    · exact hx0
    · exact ih (fun z hz => h z (by simp [hz])) hl0 y hy

end Verif.Props.LocalMatrix
