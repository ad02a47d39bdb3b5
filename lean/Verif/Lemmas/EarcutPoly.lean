import Verif.Lemmas.EarcutTop
import Verif.Spec.PlaneIntegral
/-!
Integrals of polynomials over oriented triangles, by Green's formula, are signed integrals.
-/
namespace Verif.Earcut
open Verif.Spec

/-- The integral along a piece of a line with parameter `s`. -/
theorem edgeInt_line (F : ℝ → ℝ → ℝ) (a d : P2 ℝ) (s t : ℝ) :
    edgeInt F ⟨a.x + s * d.x, a.y + s * d.y⟩ ⟨a.x + t * d.x, a.y + t * d.y⟩ =
      ∫ u in s..t, F (a.x + u * d.x) (a.y + u * d.y) * d.y := by
  have h := intervalIntegral.smul_integral_comp_add_mul (a := (0 : ℝ)) (b := 1)
    (fun u => F (a.x + u * d.x) (a.y + u * d.y) * d.y) (t - s) s
  rw [mul_zero, add_zero, mul_one, show s + (t - s) = t by ring] at h
  rw [← h, edgeInt, smul_eq_mul, ← intervalIntegral.integral_const_mul]
  congr 1
  funext u
  dsimp only
  rw [show a.x + s * d.x + u * (a.x + t * d.x - (a.x + s * d.x)) = a.x + (s + (t - s) * u) * d.x by ring,
    show a.y + s * d.y + u * (a.y + t * d.y - (a.y + s * d.y)) = a.y + (s + (t - s) * u) * d.y by ring]
  ring

theorem edgeInt_anti (F : ℝ → ℝ → ℝ) (p q : P2 ℝ) : edgeInt F p q = -edgeInt F q p := by
  have h1 := edgeInt_line F p ⟨q.x - p.x, q.y - p.y⟩ 0 1
  have h2 := edgeInt_line F p ⟨q.x - p.x, q.y - p.y⟩ 1 0
  have e0 : (⟨p.x + 0 * (q.x - p.x), p.y + 0 * (q.y - p.y)⟩ : P2 ℝ) = p := P2.ext (by dsimp; ring) (by dsimp; ring)
  have e1 : (⟨p.x + 1 * (q.x - p.x), p.y + 1 * (q.y - p.y)⟩ : P2 ℝ) = q := P2.ext (by dsimp; ring) (by dsimp; ring)
  rw [e0, e1] at h1
  rw [e0, e1] at h2
  rw [h1, h2, intervalIntegral.integral_symm]

theorem boundaryInt_tri (F : ℝ → ℝ → ℝ) (a b c : P2 ℝ) :
    boundaryInt F [a, b, c] = edgeInt F a b + edgeInt F b c + edgeInt F c a := by
  simp [boundaryInt, sides, List.rotate_cons_succ]
  ring

theorem flat_param {a b c : P2 ℝ} (hab : a ≠ b) (h : turn a b c = 0) :
    ∃ t : ℝ, c = ⟨a.x + t * (b.x - a.x), a.y + t * (b.y - a.y)⟩ := by
  unfold turn at h
  by_cases hx : b.x - a.x = 0
  · have hy : b.y - a.y ≠ 0 := fun hy => hab (P2.ext (by linarith) (by linarith))
    refine ⟨(c.y - a.y) / (b.y - a.y), P2.ext ?_ ?_⟩
    · dsimp only
      rw [hx] at h ⊢
      have : (b.y - a.y) * (c.x - a.x) = 0 := by linarith
      have := (mul_eq_zero.1 this).resolve_left hy
      linarith
    · dsimp only; rw [div_mul_cancel₀ _ hy]; ring
  · refine ⟨(c.x - a.x) / (b.x - a.x), P2.ext ?_ ?_⟩
    · dsimp only; rw [div_mul_cancel₀ _ hx]; ring
    · dsimp only
      have : (c.x - a.x) / (b.x - a.x) * (b.y - a.y) = c.y - a.y := by
        rw [div_mul_eq_mul_div, div_eq_iff hx]; linarith
      rw [this]; ring

theorem edgeInt_flat (F : ℝ → ℝ → ℝ) (hF : Continuous fun p : ℝ × ℝ => F p.1 p.2) (a b c : P2 ℝ)
    (h : turn a b c = 0) : edgeInt F a b + edgeInt F b c + edgeInt F c a = 0 := by
  by_cases hab : a = b
  · subst hab
    have h1 := edgeInt_anti F a a
    have h2 := edgeInt_anti F a c
    linarith
  obtain ⟨t, rfl⟩ := flat_param hab h
  have h1 := edgeInt_line F a ⟨b.x - a.x, b.y - a.y⟩ 0 1
  have h2 := edgeInt_line F a ⟨b.x - a.x, b.y - a.y⟩ 1 t
  have h3 := edgeInt_line F a ⟨b.x - a.x, b.y - a.y⟩ t 0
  have e0 : (⟨a.x + 0 * (b.x - a.x), a.y + 0 * (b.y - a.y)⟩ : P2 ℝ) = a := P2.ext (by dsimp; ring) (by dsimp; ring)
  have e1 : (⟨a.x + 1 * (b.x - a.x), a.y + 1 * (b.y - a.y)⟩ : P2 ℝ) = b := P2.ext (by dsimp; ring) (by dsimp; ring)
  dsimp only at h1 h2 h3
  rw [e0, e1] at h1
  rw [e1] at h2
  rw [e0] at h3
  rw [h1, h2, h3]
  have hc : Continuous fun u : ℝ => F (a.x + u * (b.x - a.x)) (a.y + u * (b.y - a.y)) * (b.y - a.y) :=
    (hF.comp (by fun_prop : Continuous fun u : ℝ => (a.x + u * (b.x - a.x), a.y + u * (b.y - a.y)))).mul
      continuous_const
  have hi : ∀ s t : ℝ, IntervalIntegrable (fun u : ℝ => F (a.x + u * (b.x - a.x)) (a.y + u * (b.y - a.y)) * (b.y - a.y))
      MeasureTheory.volume s t := fun s t => hc.intervalIntegrable s t
  rw [intervalIntegral.integral_add_adjacent_intervals (hi 0 1) (hi 1 t),
    intervalIntegral.integral_add_adjacent_intervals (hi 0 t) (hi t 0), intervalIntegral.integral_same]

theorem eval_continuous (f : Poly2) (z : P2 ℝ) :
    Continuous fun p : ℝ × ℝ => f.eval (p.1 - z.x) (p.2 - z.y) := by
  unfold Poly2.eval
  induction f with
  | nil => simpa using continuous_const
  | cons t f ih =>
    simp only [List.map_cons, List.sum_cons]
    exact Continuous.add (by fun_prop) ih

/-- The integral of a polynomial over oriented triangles. -/
theorem poly_signed (f : Poly2) (z : P2 ℝ) : SignedIntegral fun a b c => polyInt f z [a, b, c] := by
  have key : ∀ a b c, polyInt f z [a, b, c] =
      edgeInt (fun x y => f.primX.eval (x - z.x) (y - z.y)) a b +
      edgeInt (fun x y => f.primX.eval (x - z.x) (y - z.y)) b c +
      edgeInt (fun x y => f.primX.eval (x - z.x) (y - z.y)) c a := fun a b c => boundaryInt_tri _ a b c
  refine ⟨fun a b c => ?_, fun a b c d => ?_, fun a b c h => ?_⟩
  · rw [key, key]; ring
  · rw [key, key, key, key, edgeInt_anti _ c a, edgeInt_anti _ d b]; ring
  · rw [key]; exact edgeInt_flat _ (eval_continuous f.primX z) a b c h

/-- Over a closed polygon it is the integral along the boundary. -/
theorem ringInt_poly (f : Poly2) (z o : P2 ℝ) (pts : List (P2 ℝ)) :
    ringInt (fun a b c => polyInt f z [a, b, c]) o pts = polyInt f z pts := by
  rw [ringInt_eq]
  unfold polyInt
  rw [boundaryInt, sides, ← ringSum_eq (edgeInt fun x y => f.primX.eval (x - z.x) (y - z.y)),
    ← ringSum_tele (edgeInt fun x y => f.primX.eval (x - z.x) (y - z.y))
      (fun a => edgeInt (fun x y => f.primX.eval (x - z.x) (y - z.y)) o a)]
  congr 1
  funext a b
  rw [boundaryInt_tri, edgeInt_anti _ b o]
  ring

end Verif.Earcut
