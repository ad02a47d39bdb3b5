import Verif.Model.Cfem
import Verif.Spec.Cfem
import Verif.Lemmas.Dunavant
import Verif.Lemmas.Polygon
/-!
Lemmas on the first-order elements.
-/
namespace Verif.Lemmas.Cfem
open Verif.Spec Verif.Cfem Verif.PlaneIntegral Matrix

theorem den_eq (p0 p1 p2 : P2 ℝ) : den p0 p1 p2 = turn p0 p1 p2 := by unfold den turn; ring

theorem basis_some {p0 p1 p2 : P2 ℝ} (h : turn p0 p1 p2 ≠ 0) (pt : P2 ℝ) : ∃ b, basis p0 p1 p2 pt = some b ∧
    b 0 + b 1 + b 2 = 1 ∧ b 0 * p0.x + b 1 * p1.x + b 2 * p2.x = pt.x ∧
    b 0 * p0.y + b 1 * p1.y + b 2 * p2.y = pt.y := by
  have h' : den p0 p1 p2 ≠ 0 := by rwa [den_eq]
  refine ⟨_, by unfold basis; exact if_neg h', ?_, ?_, ?_⟩ <;>
    simp only [Matrix.cons_val] <;> field_simp <;> unfold den <;> ring

/-- Barycentric coordinates are unique. -/
theorem bary_unique {p0 p1 p2 : P2 ℝ} (h : turn p0 p1 p2 ≠ 0) {a b : Fin 3 → ℝ} {x y : ℝ}
    (ha : a 0 + a 1 + a 2 = 1) (ax : a 0 * p0.x + a 1 * p1.x + a 2 * p2.x = x)
    (ay : a 0 * p0.y + a 1 * p1.y + a 2 * p2.y = y)
    (hb : b 0 + b 1 + b 2 = 1) (bx : b 0 * p0.x + b 1 * p1.x + b 2 * p2.x = x)
    (bY : b 0 * p0.y + b 1 * p1.y + b 2 * p2.y = y) : a = b := by
  have e1 : (a 1 - b 1) * turn p0 p1 p2 = 0 := by
    unfold turn
    have x0 : (a 1 - b 1) * (p1.x - p0.x) + (a 2 - b 2) * (p2.x - p0.x) = 0 := by
      linear_combination ax - bx - p0.x * (ha - hb)
    have y0 : (a 1 - b 1) * (p1.y - p0.y) + (a 2 - b 2) * (p2.y - p0.y) = 0 := by
      linear_combination ay - bY - p0.y * (ha - hb)
    linear_combination (p2.y - p0.y) * x0 - (p2.x - p0.x) * y0
  have e2 : (a 2 - b 2) * turn p0 p1 p2 = 0 := by
    unfold turn
    have x0 : (a 1 - b 1) * (p1.x - p0.x) + (a 2 - b 2) * (p2.x - p0.x) = 0 := by
      linear_combination ax - bx - p0.x * (ha - hb)
    have y0 : (a 1 - b 1) * (p1.y - p0.y) + (a 2 - b 2) * (p2.y - p0.y) = 0 := by
      linear_combination ay - bY - p0.y * (ha - hb)
    linear_combination (p1.x - p0.x) * y0 - (p1.y - p0.y) * x0
  have f1 := (mul_eq_zero.mp e1).resolve_right h
  have f2 := (mul_eq_zero.mp e2).resolve_right h
  funext i
  fin_cases i
  · show a 0 = b 0; linarith
  · show a 1 = b 1; linarith
  · show a 2 = b 2; linarith

/-- The basis at a point given by its barycentric coordinates. -/
theorem basis_eq {p0 p1 p2 : P2 ℝ} (h : turn p0 p1 p2 ≠ 0) {pt : P2 ℝ} {a : Fin 3 → ℝ}
    (ha : a 0 + a 1 + a 2 = 1) (ax : a 0 * p0.x + a 1 * p1.x + a 2 * p2.x = pt.x)
    (ay : a 0 * p0.y + a 1 * p1.y + a 2 * p2.y = pt.y) : basis p0 p1 p2 pt = some a := by
  obtain ⟨b, e, h1, h2, h3⟩ := basis_some h pt
  rw [e, bary_unique h ha ax ay h1 h2 h3]

theorem measure_eq (p0 p1 p2 : P2 ℝ) : Simplex.measure2 p0 p1 p2 false = some (|turn p0 p1 p2| / 2) := by
  simp [Simplex.measure2, Polygon.triMeasure_eq]

theorem mass_eq {p0 p1 p2 : P2 ℝ} (h : turn p0 p1 p2 ≠ 0) : ∃ M, mass p0 p1 p2 = some M ∧
    ∀ i j, M i j = |turn p0 p1 p2| / 24 * (if i = j then 2 else 1) := by
  have ea : basis p0 p1 p2 (mid p0 p1) = some ![1/2, 1/2, 0] := basis_eq h (by simp; norm_num)
    (by simp [mid]; ring) (by simp [mid]; ring)
  have eb : basis p0 p1 p2 (mid p1 p2) = some ![0, 1/2, 1/2] := basis_eq h (by simp; norm_num)
    (by simp [mid]; ring) (by simp [mid]; ring)
  have ec : basis p0 p1 p2 (mid p0 p2) = some ![1/2, 0, 1/2] := basis_eq h (by simp; norm_num)
    (by simp [mid]; ring) (by simp [mid]; ring)
  refine ⟨_, by unfold mass; rw [measure_eq, ea, eb, ec]; rfl, ?_⟩
  intro i j
  fin_cases i <;> fin_cases j <;> simp [vecMulVec_apply] <;> ring

/-- A quadratic polynomial in reference coordinates. -/
theorem refTri_quad (c a b d e f : ℝ) : refTri (fun u v => c + a * u + b * v + d * u ^ 2 + e * (u * v) + f * v ^ 2) =
    c / 2 + a / 6 + b / 6 + d / 12 + e / 24 + f / 12 := by
  have k := refTri_poly [(c, 0, 0), (a, 1, 0), (b, 0, 1), (d, 2, 0), (e, 1, 1), (f, 0, 2)]
  simp only [refTri_mono, List.map_cons, List.map_nil, List.sum_cons, List.sum_nil, triMom] at k
  rw [show (fun u v : ℝ => c + a * u + b * v + d * u ^ 2 + e * (u * v) + f * v ^ 2) =
    fun u v => Poly2.eval [(c, 0, 0), (a, 1, 0), (b, 0, 1), (d, 2, 0), (e, 1, 1), (f, 0, 2)] u v from by
      funext u v; simp [Poly2.eval]; ring, k]
  norm_num [Nat.factorial]
  ring

/-- The integral of a product of affine functions. -/
theorem triInt_mul (p0 p1 p2 : P2 ℝ) (c a b c' a' b' : ℝ) :
    triInt p0 p1 p2 (fun p => affineFun c a b p * affineFun c' a' b' p) =
    |turn p0 p1 p2| / 24 * (affineFun c a b p0 * affineFun c' a' b' p0 + affineFun c a b p1 * affineFun c' a' b' p1 +
      affineFun c a b p2 * affineFun c' a' b' p2 +
      (affineFun c a b p0 + affineFun c a b p1 + affineFun c a b p2) *
      (affineFun c' a' b' p0 + affineFun c' a' b' p1 + affineFun c' a' b' p2)) := by
  unfold triInt
  set F := affineFun c a b
  set G := affineFun c' a' b'
  have e : (fun u v : ℝ => F ⟨p0.x + u * (p1.x - p0.x) + v * (p2.x - p0.x), p0.y + u * (p1.y - p0.y) + v * (p2.y - p0.y)⟩ *
      G ⟨p0.x + u * (p1.x - p0.x) + v * (p2.x - p0.x), p0.y + u * (p1.y - p0.y) + v * (p2.y - p0.y)⟩) =
      fun u v => F p0 * G p0 + (F p0 * (G p1 - G p0) + G p0 * (F p1 - F p0)) * u +
        (F p0 * (G p2 - G p0) + G p0 * (F p2 - F p0)) * v + (F p1 - F p0) * (G p1 - G p0) * u ^ 2 +
        ((F p1 - F p0) * (G p2 - G p0) + (F p2 - F p0) * (G p1 - G p0)) * (u * v) +
        (F p2 - F p0) * (G p2 - G p0) * v ^ 2 := by
    funext u v
    simp only [F, G, affineFun]; ring
  rw [e, refTri_quad]
  ring

theorem triInt_const (p0 p1 p2 : P2 ℝ) (k : ℝ) : triInt p0 p1 p2 (fun _ => k) = |turn p0 p1 p2| / 2 * k := by
  have h := triInt_mul p0 p1 p2 k 0 0 1 0 0
  simp only [affineFun, mul_one, zero_mul, add_zero] at h
  rw [h]; ring

/-- The rows of the gradient recover the slope of an affine function. -/
theorem grad_some {p0 p1 p2 : P2 ℝ} (h : turn p0 p1 p2 ≠ 0) : ∃ d, grad p0 p1 p2 = some d ∧
    (∀ c a b, affineFun c a b p0 * d 0 0 + affineFun c a b p1 * d 1 0 + affineFun c a b p2 * d 2 0 = a) ∧
    (∀ c a b, affineFun c a b p0 * d 0 1 + affineFun c a b p1 * d 1 1 + affineFun c a b p2 * d 2 1 = b) := by
  have h' : den p0 p1 p2 ≠ 0 := by rwa [den_eq]
  refine ⟨_, by unfold grad; exact if_neg h', ?_, ?_⟩ <;> intro c a b <;>
    simp [affineFun] <;> field_simp <;> unfold den <;> ring

end Verif.Lemmas.Cfem
