import Verif.Model.CartMeasure
import Verif.Lemmas.QuadGeom
/-! Helper lemmas for measures on Cartesian meshes. -/
namespace Verif.CartMeasure
open Verif.QuadRefine Verif.Spec.QuadMesh

theorem points_ok {P : Type} {pts : List P} {is : List Nat} {ps : List P}
    (h : List.Forall₂ (fun i p => pts[i]? = some p) is ps) : points pts is = .ok ps := by
  induction h with
  | nil => rfl
  | cons h1 _ ih => simp only [points, h1, ih, Outcome.bind_ok]

theorem dist2_axis {u p q : ℝ × ℝ} {h : ℝ} (hh : 0 < h) (hu : Axis u h) (e1 : q.1 - p.1 = u.1) (e2 : q.2 - p.2 = u.2) :
    dist2 p q = h := by
  have := axis_sq hu
  rw [dist2, e1, e2, show u.1 ^ 2 + u.2 ^ 2 = h ^ 2 by nlinarith, Real.sqrt_sq hh.le]

theorem axis_turn {u : ℝ × ℝ} {h : ℝ} (hu : Axis u h) : Axis (-u.2, u.1) h := by
  rcases hu with rfl | rfl | rfl | rfl <;> simp [Axis]

end Verif.CartMeasure
