import Verif.Lemmas.BoundingBox
import Verif.Model.BoundingBox
import Verif.Spec.BoundingBox
import Mathlib.Data.List.FinRange
import Mathlib.Data.Fin.VecNotation
/-!
Property C40.
-/
namespace Verif.Props.BoundingBox
open Verif.BoundingBox Verif.Spec.BoundingBox

variable {K : Type} [LinearOrder K] {d : Nat}

/-- C40. With asserts compiled out, if any two points are componentwise comparable the result is the
smallest box containing all points. -/
theorem c40_chain_partial (pts : List (Fin d → K)) (hne : pts ≠ [])
    (hcomp : ∀ p ∈ pts, ∀ q ∈ pts, Comparable p q) :
    ∃ lo hi, compute true pts = .ok (lo, hi) ∧ IsBox lo hi pts := by
  cases pts with
  | nil => exact absurd rfl hne
  | cons p ps =>
    obtain ⟨lo, hi, h1, h2, h3, h4⟩ := loop_chain [p] ps p p (by simp) (by simp)
      (by intro q hq i; rw [List.mem_singleton] at hq; subst hq; exact ⟨le_refl _, le_refl _⟩) hcomp
    refine ⟨lo, hi, h1, h4, ?_⟩
    intro lo' hi' hc i
    exact ⟨(hc lo h2 i).1, (hc hi h3 i).2⟩

/-- C40. In dimension one, with asserts compiled out, the result is the smallest interval containing all
points. -/
theorem c40_dim1_partial (pts : List (Fin 1 → K)) (hne : pts ≠ []) :
    ∃ lo hi, compute true pts = .ok (lo, hi) ∧ IsBox lo hi pts := by
  apply c40_chain_partial pts hne
  intro p _ q _
  rcases le_total (p 0) (q 0) with h | h
  · left; intro i; rwa [Fin.eq_zero i]
  · right; intro i; rwa [Fin.eq_zero i]

example : ([![3], ![1], ![2]] : List (Fin 1 → Int)) ≠ [] := by simp

/-- C40. With asserts, the computation stops when the second point enlarges the box on both sides or on
none. -/
theorem c40_assert_general (p q : Fin d → K) (ps : List (Fin d → K)) (h : ltFlag p q = gtFlag p q) :
    compute false (p :: q :: ps) = .ub "assert" := by
  simp [compute, loop, h]

example : ltFlag (![0, 1] : Fin 2 → Int) ![1, 0] = gtFlag ![0, 1] ![1, 0] := by decide

/-- C40 violation. In two dimensions two points on an antidiagonal give a box that is a single point, not
containing the other one. -/
theorem c40_violation :
    compute true ([![0, 1], ![1, 0]] : List (Fin 2 → Int)) = .ok (![1, 0], ![1, 0]) ∧
    ¬ Contains (![1, 0] : Fin 2 → Int) ![1, 0] [![0, 1], ![1, 0]] := by
  constructor
  · rfl
  · intro h
    have := (h ![0, 1] (by simp) 0).1
    simp at this

/-- C40 violation. With asserts, a one-dimensional mesh with an interior point after both ends aborts. -/
theorem c40_assert_violation : (compute false ([![0], ![2], ![1]] : List (Fin 1 → Int))).IsUB := by
  have : compute false ([![0], ![2], ![1]] : List (Fin 1 → Int)) = .ub "assert" := by rfl
  rw [this]; trivial

end Verif.Props.BoundingBox
