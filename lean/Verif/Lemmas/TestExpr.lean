import Verif.Spec.TestData
import Mathlib.Analysis.SpecialFunctions.Trigonometric.Deriv
import Mathlib.Analysis.SpecialFunctions.ExpDeriv
import Mathlib.Analysis.Calculus.Deriv.Inv
import Mathlib.Analysis.Calculus.Deriv.Mul
import Mathlib.Analysis.Calculus.Deriv.Add
import Mathlib.Analysis.Calculus.Deriv.Pow
import Mathlib.Data.Fin.VecNotation
import Mathlib.Algebra.BigOperators.Fin
import Mathlib.Tactic.FinCases
import Mathlib.Tactic.Ring
/-!
The rules of differentiation for `Partial` and a tactic that applies them.
-/
namespace Verif.Lemmas.TestData
open Verif.Spec.TestData

namespace Pd

variable {d : Nat} {u v : (Fin d → ℝ) → ℝ} {i j : Fin d} {p : Fin d → ℝ} {a b : ℝ}

theorem conv {a' : ℝ} (h : Partial (fun q => u q) i p a') (e : a = a') : Partial u i p a := by rw [e]; exact h

theorem const (r : ℝ) : Partial (fun _ => r) i p 0 := hasDerivAt_const (p i) r

theorem same : Partial (fun q => q i) i p 1 := by simpa [Partial] using hasDerivAt_id' (p i)

theorem other (h : j ≠ i) : Partial (fun q => q j) i p 0 := by
  simpa [Partial, Function.update_of_ne h] using hasDerivAt_const (p i) (p j)

theorem add (hu : Partial u i p a) (hv : Partial v i p b) : Partial (fun q => u q + v q) i p (a + b) := HasDerivAt.add hu hv

theorem sub (hu : Partial u i p a) (hv : Partial v i p b) : Partial (fun q => u q - v q) i p (a - b) := HasDerivAt.sub hu hv

theorem neg (hu : Partial u i p a) : Partial (fun q => -u q) i p (-a) := HasDerivAt.neg hu

theorem mul (hu : Partial u i p a) (hv : Partial v i p b) : Partial (fun q => u q * v q) i p (a * v p + u p * b) := by
  have := HasDerivAt.mul hu hv
  rw [Function.update_eq_self] at this
  exact this

theorem divc (r : ℝ) (hu : Partial u i p a) : Partial (fun q => u q / r) i p (a / r) := HasDerivAt.div_const hu r

theorem sin (hu : Partial u i p a) : Partial (fun q => Real.sin (u q)) i p (Real.cos (u p) * a) := by
  have := HasDerivAt.sin hu
  rw [Function.update_eq_self] at this
  exact this

theorem cos (hu : Partial u i p a) : Partial (fun q => Real.cos (u q)) i p (-Real.sin (u p) * a) := by
  have := HasDerivAt.cos hu
  rw [Function.update_eq_self] at this
  exact this

theorem exp (hu : Partial u i p a) : Partial (fun q => Real.exp (u q)) i p (Real.exp (u p) * a) := by
  have := HasDerivAt.exp hu
  rw [Function.update_eq_self] at this
  exact this

theorem pow (n : Nat) (hu : Partial u i p a) : Partial (fun q => u q ^ n) i p (n * u p ^ (n - 1) * a) := by
  have := HasDerivAt.fun_pow hu n
  rw [Function.update_eq_self] at this
  exact this

theorem inv (hu : Partial u i p a) (h : u p ≠ 0) : Partial (fun q => (u q)⁻¹) i p (-a / u p ^ 2) := by
  have := HasDerivAt.fun_inv hu (by rw [Function.update_eq_self]; exact h)
  rw [Function.update_eq_self] at this
  exact this

/-- The derivative depends on the function near the point only. -/
theorem congr (h : ∀ᶠ s in nhds (p i), v (Function.update p i s) = u (Function.update p i s)) (hu : Partial u i p a) :
    Partial v i p a := HasDerivAt.congr_of_eventuallyEq hu h

theorem unique (h : Partial u i p a) (h' : Partial u i p b) : a = b := HasDerivAt.unique h h'

end Pd

theorem isGrad_one {u : (Fin 1 → ℝ) → ℝ} {g p : Fin 1 → ℝ} (h : Partial u 0 p (g 0)) : IsGradAt u g p := by
  intro i
  rw [Subsingleton.elim i 0]
  exact h

theorem isGrad_two {u : (Fin 2 → ℝ) → ℝ} {g p : Fin 2 → ℝ} (h : Partial u 0 p (g 0)) (h' : Partial u 1 p (g 1)) :
    IsGradAt u g p := by
  intro i
  fin_cases i
  · exact h
  · exact h'

theorem isGrad_three {u : (Fin 3 → ℝ) → ℝ} {g p : Fin 3 → ℝ} (h : Partial u 0 p (g 0)) (h' : Partial u 1 p (g 1))
    (h'' : Partial u 2 p (g 2)) : IsGradAt u g p := by
  intro i
  fin_cases i
  · exact h
  · exact h'
  · exact h''

theorem isDiv_one {F : (Fin 1 → ℝ) → Fin 1 → ℝ} {p : Fin 1 → ℝ} {v a : ℝ} (h : Partial (fun q => F q 0) 0 p a)
    (e : v = a) : IsDivAt F p v := by
  refine ⟨fun _ => a, fun i => ?_, by simp [e]⟩
  rw [Subsingleton.elim i 0]
  exact h

theorem isDiv_two {F : (Fin 2 → ℝ) → Fin 2 → ℝ} {p : Fin 2 → ℝ} {v a b : ℝ} (h : Partial (fun q => F q 0) 0 p a)
    (h' : Partial (fun q => F q 1) 1 p b) (e : v = a + b) : IsDivAt F p v := by
  refine ⟨![a, b], fun i => ?_, by simp [e]⟩
  fin_cases i
  · exact h
  · exact h'

theorem isDiv_three {F : (Fin 3 → ℝ) → Fin 3 → ℝ} {p : Fin 3 → ℝ} {v a b c : ℝ} (h : Partial (fun q => F q 0) 0 p a)
    (h' : Partial (fun q => F q 1) 1 p b) (h'' : Partial (fun q => F q 2) 2 p c) (e : v = a + b + c) :
    IsDivAt F p v := by
  refine ⟨![a, b, c], fun i => ?_, by simp [e, Fin.sum_univ_succ, add_assoc]⟩
  fin_cases i
  · exact h
  · exact h'
  · exact h''

/-- The divergence is unique. -/
theorem isDiv_unique {d : Nat} {F : (Fin d → ℝ) → Fin d → ℝ} {p : Fin d → ℝ} {v v' : ℝ} (h : IsDivAt F p v)
    (h' : IsDivAt F p v') : v = v' := by
  obtain ⟨w, hw, rfl⟩ := h
  obtain ⟨w', hw', rfl⟩ := h'
  exact Finset.sum_congr rfl fun i _ => Pd.unique (hw i) (hw' i)

theorem isGrad_unique {d : Nat} {u : (Fin d → ℝ) → ℝ} {p g g' : Fin d → ℝ} (h : IsGradAt u g p) (h' : IsGradAt u g' p) :
    g = g' := funext fun i => Pd.unique (h i) (h' i)

/-- Differentiates by the rules. -/
macro "pd" : tactic =>
  `(tactic| with_reducible repeat' first
    | exact Pd.const _ | exact Pd.same | exact Pd.other (by decide) | apply Pd.sin | apply Pd.cos | apply Pd.exp
    | apply Pd.pow | apply Pd.add | apply Pd.sub | apply Pd.neg | apply Pd.divc | apply Pd.mul | apply Pd.inv)

end Verif.Lemmas.TestData
