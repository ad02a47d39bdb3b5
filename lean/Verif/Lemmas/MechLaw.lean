import Verif.Lemmas.Mech
import Verif.Spec.Mech
import Verif.Lemmas.Sort
import Mathlib.Analysis.Calculus.Deriv.Add
import Mathlib.Analysis.Calculus.Deriv.Mul
import Mathlib.LinearAlgebra.Matrix.Determinant.Basic
import Mathlib.Tactic.LinearCombination
import Mathlib.Tactic.FinCases
import Mathlib.Tactic.NormNum
/-! Lemmas for Mech.lean. -/
namespace Verif.Props.Mech
open Verif.Tensor Verif.TensorConv Verif.Mech Verif.Spec Verif.Lemmas.Mech Finset

variable {D : Nat}

theorem tooClose_iff {eps : ℝ} : ∀ {c : List (ℝ × ℝ)}, c.Pairwise (fun a b => a.1 ≤ b.1) →
    (tooClose eps c = false ↔ c.Pairwise (fun a b => a.1 + eps ≤ b.1 ∧ a.1 ≤ b.1))
  | [], _ => by simp [tooClose]
  | [a], _ => by simp [tooClose]
  | a :: b :: r, h => by
    have h' := (List.pairwise_cons.mp h).2
    have ih := tooClose_iff (eps := eps) h'
    have hab : a.1 ≤ b.1 := (List.pairwise_cons.mp h).1 b List.mem_cons_self
    rw [tooClose, Bool.or_eq_false_iff, ih, List.pairwise_cons (l := b :: r)]
    have e : decide (|a.1 - b.1| < eps) = false ↔ a.1 + eps ≤ b.1 := by
      rw [decide_eq_false_iff_not, not_lt, abs_sub_comm, abs_of_nonneg (by linarith)]
      constructor <;> intro <;> linarith
    rw [e]
    refine and_congr_left fun hp => ⟨fun hab' x hx => ?_, fun hall => (hall b List.mem_cons_self).1⟩
    rcases List.mem_cons.mp hx with rfl | hx
    · exact ⟨hab', hab⟩
    · have := ((List.pairwise_cons.mp hp).1 x hx).2
      exact ⟨by linarith, by linarith⟩

end Verif.Props.Mech
