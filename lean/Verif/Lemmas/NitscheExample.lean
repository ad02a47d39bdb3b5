import Verif.Lemmas.HhoExample
import Verif.Lemmas.Nitsche
/-!
The segment with both end points on the boundary.
-/
namespace Verif.Lemmas.Nitsche
open Finset Verif.Hho Verif.Spec.Hho Verif.Lemmas.Hho Verif.Nitsche Verif.Spec.Nitsche LocalMatrix

/-- The faces of the segment: both on the boundary, `measure` of a point is one. -/
def segB : List (BFace ℚ ℚ) := [⟨endPoint 0 (-1) 1, true, 1⟩, ⟨endPoint 1 1 1, true, 1⟩]

theorem segB_size : ∀ f ∈ segB, (f.basis 1).size = 1 := fun f hf => by
  simp only [segB, List.mem_cons, List.not_mem_nil, or_false] at hf
  rcases hf with rfl | rfl <;> rfl

theorem seg_interp (a : Nat → ℚ) : IsInterp segPoly 1 (uniform 1 segFaces) (evalFn (segCell.basis 2) a)
    (project (exactSolver ℚ) segCell segFaces 1 1 1 1 (evalFn (segCell.basis 2) a)) := by
  have hmF : ∀ g ∈ segFaces, Nonsing (g.basis 1).size (mass g.toElem 1 (g.basis 1)) := fun g hg => by
    have := segFaceMass g hg (2 * 1)
    simp only [segFaces, List.mem_cons, List.not_mem_nil, or_false] at hg
    rcases hg with rfl | rfl <;> exact this
  have hs : ∀ g ∈ segFaces, (g.basis 1).size = 1 := fun g hg => by
    simp only [segFaces, List.mem_cons, List.not_mem_nil, or_false] at hg
    rcases hg with rfl | rfl <;> rfl
  exact project_isInterp segPoly (exactSolver ℚ) (rd := 2) (cd := 1) (fd := 1) (fbs := 1) (di := 1)
      hs segMass hmF (by omega) (by omega) (by omega) (by omega) (evalFn_mem segPoly 2 a)

end Verif.Lemmas.Nitsche
