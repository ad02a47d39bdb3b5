import Verif.Model.Simplex
import Verif.Lemmas.Polygon
/-!
Helper lemmas for triangles and tetrahedra.
-/
set_option linter.unusedSectionVars false
namespace Verif.Simplex
open Verif.Spec

variable {K : Type}

section field
variable [Field K] [LinearOrder K] [IsStrictOrderedRing K]

/-- The four tests are six times the signed volumes of the tetrahedra with one vertex replaced. -/
theorem tests (p0 p1 p2 p3 pt : P3 K) :
    dot (cross (sub p3 p0) (sub p1 p0)) (sub pt p0) = vol6 p0 p1 pt p3 ∧
    dot (cross (sub p1 p0) (sub p2 p0)) (sub pt p0) = vol6 p0 p1 p2 pt ∧
    dot (cross (sub p3 p1) (sub p2 p1)) (sub pt p1) = vol6 pt p1 p2 p3 ∧
    dot (cross (sub p2 p0) (sub p3 p0)) (sub pt p0) = vol6 p0 pt p2 p3 := by
  simp only [dot, cross, sub, vol6]
  refine ⟨?_, ?_, ?_, ?_⟩ <;> ring

theorem isInside_eq (p0 p1 p2 p3 pt : P3 K) : isInside p0 p1 p2 p3 pt =
    (decide (0 ≤ vol6 p0 p1 pt p3 ∧ 0 ≤ vol6 p0 p1 p2 pt ∧ 0 ≤ vol6 pt p1 p2 p3 ∧ 0 ≤ vol6 p0 pt p2 p3) ||
     decide (vol6 p0 p1 pt p3 < 0 ∧ vol6 p0 p1 p2 pt < 0 ∧ vol6 pt p1 p2 p3 < 0 ∧ vol6 p0 pt p2 p3 < 0)) := by
  obtain ⟨h0, h1, h2, h3⟩ := tests p0 p1 p2 p3 pt
  unfold isInside
  simp only [h0, h1, h2, h3, vote]
  generalize vol6 p0 p1 pt p3 = a
  generalize vol6 p0 p1 p2 pt = b
  generalize vol6 pt p1 p2 p3 = c
  generalize vol6 p0 pt p2 p3 = d
  by_cases ha : a < 0 <;> by_cases hb : b < 0 <;> by_cases hc : c < 0 <;> by_cases hd : d < 0 <;>
    simp [ha, hb, hc, hd, not_le.mpr, le_of_not_gt, not_lt.mp]

theorem vol_sum (p0 p1 p2 p3 pt : P3 K) :
    vol6 pt p1 p2 p3 + vol6 p0 pt p2 p3 + vol6 p0 p1 pt p3 + vol6 p0 p1 p2 pt = vol6 p0 p1 p2 p3 := by
  simp only [vol6]; ring

theorem vol_of_bary {p0 p1 p2 p3 pt : P3 K} {l0 l1 l2 l3 : K} (h : Bary p0 p1 p2 p3 pt l0 l1 l2 l3) :
    vol6 pt p1 p2 p3 = l0 * vol6 p0 p1 p2 p3 ∧ vol6 p0 pt p2 p3 = l1 * vol6 p0 p1 p2 p3 ∧
    vol6 p0 p1 pt p3 = l2 * vol6 p0 p1 p2 p3 ∧ vol6 p0 p1 p2 pt = l3 * vol6 p0 p1 p2 p3 := by
  obtain ⟨hs, hx, hy, hz⟩ := h
  have e0 : l0 = 1 - l1 - l2 - l3 := by linarith
  subst e0
  simp only [vol6, hx, hy, hz]
  refine ⟨?_, ?_, ?_, ?_⟩ <;> ring

theorem bary_of_vol (p0 p1 p2 p3 pt : P3 K) (hD : vol6 p0 p1 p2 p3 ≠ 0) :
    Bary p0 p1 p2 p3 pt (vol6 pt p1 p2 p3 / vol6 p0 p1 p2 p3) (vol6 p0 pt p2 p3 / vol6 p0 p1 p2 p3)
      (vol6 p0 p1 pt p3 / vol6 p0 p1 p2 p3) (vol6 p0 p1 p2 pt / vol6 p0 p1 p2 p3) := by
  have hc : ∀ a : K, vol6 p0 p1 p2 p3 * (a / vol6 p0 p1 p2 p3) = a := fun a => mul_div_cancel₀ a hD
  refine ⟨?_, ?_, ?_, ?_⟩ <;> apply mul_left_cancel₀ hD
  · rw [mul_add, mul_add, mul_add, hc, hc, hc, hc, vol_sum, mul_one]
  all_goals
    simp only [mul_add, ← mul_assoc, hc]
    simp only [vol6]; ring

theorem det_eq (p0 p1 p2 p3 : P3 K) : dot (sub p1 p0) (cross (sub p2 p0) (sub p3 p0)) = vol6 p0 p1 p2 p3 := by
  simp only [dot, cross, sub, vol6]; ring

end field

section real

theorem norm_nonneg (v : P3 ℝ) : 0 ≤ norm v := Real.sqrt_nonneg _
theorem norm_sq (v : P3 ℝ) : norm v * norm v = dot v v :=
  Real.mul_self_sqrt (by nlinarith [mul_self_nonneg v.x, mul_self_nonneg v.y, mul_self_nonneg v.z])

theorem norm_eq_zero (v : P3 ℝ) (h : norm v = 0) : v.x = 0 ∧ v.y = 0 ∧ v.z = 0 := by
  have h1 := norm_sq v
  rw [h] at h1
  simp only [dot] at h1
  refine ⟨?_, ?_, ?_⟩ <;> nlinarith [mul_self_nonneg v.x, mul_self_nonneg v.y, mul_self_nonneg v.z]

theorem area3Arg_eq (p0 p1 p2 : P3 ℝ) :
    Polygon.kahanArg (norm (sub p1 p0)) (norm (sub p2 p0)) (norm (sub p2 p1))
      = (2 * norm (cross (sub p1 p0) (sub p2 p0))) ^ 2 := by
  rw [Polygon.kahanArg_eq]
  have hx := norm_sq (sub p1 p0)
  have hy := norm_sq (sub p2 p0)
  have hz := norm_sq (sub p2 p1)
  have hn := norm_sq (cross (sub p1 p0) (sub p2 p0))
  generalize norm (sub p1 p0) = X at hx
  generalize norm (sub p2 p0) = Y at hy
  generalize norm (sub p2 p1) = Z at hz
  generalize norm (cross (sub p1 p0) (sub p2 p0)) = N at hn
  have e : (X + Y + Z) * (-X + Y + Z) * (X - Y + Z) * (X + Y - Z)
      = 2 * ((X * X) * (Y * Y) + (Y * Y) * (Z * Z) + (Z * Z) * (X * X))
        - (X * X) * (X * X) - (Y * Y) * (Y * Y) - (Z * Z) * (Z * Z) := by ring
  rw [e, hx, hy, hz, mul_pow, pow_two N, hn]
  simp only [dot, cross, sub]; ring

theorem area3_eq (p0 p1 p2 : P3 ℝ) :
    area3 p0 p1 p2 = norm (cross (sub p1 p0) (sub p2 p0)) / 2 := by
  unfold area3 Polygon.kahanLengths
  have hn0 := norm_nonneg (cross (sub p1 p0) (sub p2 p0))
  rw [area3Arg_eq, Real.sqrt_sq_eq_abs, abs_of_nonneg (by linarith)]
  ring

/-- The vector computed by `normal` before scaling, in terms of volumes. -/
theorem cross_dot (a b c v : P3 ℝ) : dot (cross (sub b a) (sub c b)) (sub v a) = vol6 a b c v := by
  simp only [dot, cross, sub, vol6]; ring

theorem tet_out (a b c opp : P3 ℝ) :
    dot (cross (sub b a) (sub c b)) (sub (bary3 a b c) (bary4 a b c opp)) = -(vol6 a b c opp) / 4 := by
  simp only [dot, cross, sub, vol6, bary3, bary4]; ring

theorem cross_ne (a b c opp : P3 ℝ) (h : vol6 a b c opp ≠ 0) : norm (cross (sub b a) (sub c b)) ≠ 0 := by
  intro h0
  apply h
  obtain ⟨h1, h2, h3⟩ := norm_eq_zero _ h0
  rw [← cross_dot]
  unfold dot
  rw [h1, h2, h3]; ring

theorem unit_of (n : P3 ℝ) (h : norm n ≠ 0) :
    n.x / norm n * (n.x / norm n) + n.y / norm n * (n.y / norm n) + n.z / norm n * (n.z / norm n) = 1 := by
  have hs := norm_sq n
  simp only [dot] at hs
  rw [div_mul_div_comm, div_mul_div_comm, div_mul_div_comm, ← add_div, ← add_div, hs, div_self]
  rw [← hs]; exact mul_ne_zero h h

end real
end Verif.Simplex
