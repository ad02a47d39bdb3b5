import Verif.Spec.PlaneIntegral
import Verif.Model.Gauss
import Mathlib.MeasureTheory.Integral.DivergenceTheorem
import Mathlib.Analysis.Calculus.FDeriv.Pow
import Mathlib.Analysis.Calculus.FDeriv.Prod
import Mathlib.Analysis.Calculus.Deriv.Pow
import Mathlib.Analysis.SpecialFunctions.Integrals.Basic
/-!
Green's formula on the image of a square by a bilinear map.
-/
namespace Verif.PlaneIntegral
open Verif.Spec Verif.Quad MeasureTheory

/-- A function of two variables with continuous partial derivatives, given by its derivative in `x` and `y`. -/
structure C1 (F Fx Fy : ℝ → ℝ → ℝ) : Prop where
  der : ∀ p : ℝ × ℝ, HasFDerivAt (fun p : ℝ × ℝ => F p.1 p.2)
    (Fx p.1 p.2 • ContinuousLinearMap.fst ℝ ℝ ℝ + Fy p.1 p.2 • ContinuousLinearMap.snd ℝ ℝ ℝ) p
  cx : Continuous fun p : ℝ × ℝ => Fx p.1 p.2
  cy : Continuous fun p : ℝ × ℝ => Fy p.1 p.2

theorem C1.cont {F Fx Fy : ℝ → ℝ → ℝ} (h : C1 F Fx Fy) : Continuous fun p : ℝ × ℝ => F p.1 p.2 :=
  continuous_iff_continuousAt.mpr fun p => (h.der p).continuousAt

/-- The coefficients of the bilinear coordinate. -/
noncomputable def bx (c0 c1 c2 c3 : ℝ) : ℝ := (-c0 + c1 + c2 - c3) / 4
noncomputable def by' (c0 c1 c2 c3 : ℝ) : ℝ := (-c0 - c1 + c2 + c3) / 4
noncomputable def bxy (c0 c1 c2 c3 : ℝ) : ℝ := (c0 - c1 + c2 - c3) / 4
noncomputable def b0 (c0 c1 c2 c3 : ℝ) : ℝ := (c0 + c1 + c2 + c3) / 4

theorem bil_eq (c0 c1 c2 c3 u v : ℝ) : bil c0 c1 c2 c3 u v =
    b0 c0 c1 c2 c3 + bx c0 c1 c2 c3 * u + by' c0 c1 c2 c3 * v + bxy c0 c1 c2 c3 * (u * v) := by
  unfold bil b0 bx by' bxy; ring

theorem jac_eq (p0 p1 p2 p3 : P2 ℝ) (u v : ℝ) : jac p0 p1 p2 p3 u v =
    (bx p0.x p1.x p2.x p3.x + bxy p0.x p1.x p2.x p3.x * v) *
      (by' p0.y p1.y p2.y p3.y + bxy p0.y p1.y p2.y p3.y * u) -
    (by' p0.x p1.x p2.x p3.x + bxy p0.x p1.x p2.x p3.x * u) *
      (bx p0.y p1.y p2.y p3.y + bxy p0.y p1.y p2.y p3.y * v) := by
  unfold jac bx by' bxy; ring

theorem bil_der (a0 a1 a2 a3 : ℝ) (p : ℝ × ℝ) :
    HasFDerivAt (fun p : ℝ × ℝ => a0 + a1 * p.1 + a2 * p.2 + a3 * (p.1 * p.2))
      ((a1 + a3 * p.2) • ContinuousLinearMap.fst ℝ ℝ ℝ + (a2 + a3 * p.1) • ContinuousLinearMap.snd ℝ ℝ ℝ) p := by
  have h1 : HasFDerivAt (fun p : ℝ × ℝ => p.1) (ContinuousLinearMap.fst ℝ ℝ ℝ) p := hasFDerivAt_fst
  have h2 : HasFDerivAt (fun p : ℝ × ℝ => p.2) (ContinuousLinearMap.snd ℝ ℝ ℝ) p := hasFDerivAt_snd
  have h := (((hasFDerivAt_const a0 p).add (h1.const_mul a1)).add (h2.const_mul a2)).add
    ((h1.mul h2).const_mul a3)
  refine h.congr_fderiv ?_
  ext <;> simp <;> ring

theorem aff_der (a0 a1 : ℝ) (π : ℝ × ℝ →L[ℝ] ℝ) (p : ℝ × ℝ) :
    HasFDerivAt (fun p : ℝ × ℝ => a0 + a1 * π p) (a1 • π) p := by
  have h := (hasFDerivAt_const a0 p).add ((π.hasFDerivAt (x := p)).const_mul a1)
  refine h.congr_fderiv ?_
  ext <;> simp

/-- Green's formula on the bilinear image of the square, boundary still parametrised by `[-1, 1]`. -/
theorem green_raw {F Fx Fy : ℝ → ℝ → ℝ} (h : C1 F Fx Fy) (a0 a1 a2 a3 c0 c1 c2 c3 : ℝ) :
    let X := fun u v : ℝ => a0 + a1 * u + a2 * v + a3 * (u * v)
    let Y := fun u v : ℝ => c0 + c1 * u + c2 * v + c3 * (u * v)
    (∫ u in (-1 : ℝ)..1, ∫ v in (-1 : ℝ)..1, Fx (X u v) (Y u v) *
      ((a1 + a3 * v) * (c2 + c3 * u) - (a2 + a3 * u) * (c1 + c3 * v))) =
    (((∫ u in (-1 : ℝ)..1, -(F (X u 1) (Y u 1) * (c1 + c3 * 1))) -
      ∫ u in (-1 : ℝ)..1, -(F (X u (-1)) (Y u (-1)) * (c1 + c3 * (-1)))) +
      ∫ v in (-1 : ℝ)..1, F (X 1 v) (Y 1 v) * (c2 + c3 * 1)) -
      ∫ v in (-1 : ℝ)..1, F (X (-1) v) (Y (-1) v) * (c2 + c3 * (-1)) := by
  intro X Y
  set fst' := ContinuousLinearMap.fst ℝ ℝ ℝ
  set snd' := ContinuousLinearMap.snd ℝ ℝ ℝ
  have hX : Continuous fun p : ℝ × ℝ => X p.1 p.2 := by simp only [X]; fun_prop
  have hY : Continuous fun p : ℝ × ℝ => Y p.1 p.2 := by simp only [Y]; fun_prop
  have hXY : Continuous fun p : ℝ × ℝ => (X p.1 p.2, Y p.1 p.2) := hX.prodMk hY
  have cF : Continuous fun p : ℝ × ℝ => F (X p.1 p.2) (Y p.1 p.2) := h.cont.comp hXY
  have cFx : Continuous fun p : ℝ × ℝ => Fx (X p.1 p.2) (Y p.1 p.2) := h.cx.comp hXY
  have cFy : Continuous fun p : ℝ × ℝ => Fy (X p.1 p.2) (Y p.1 p.2) := h.cy.comp hXY
  -- derivative of `F ∘ (X, Y)`
  have dG : ∀ p : ℝ × ℝ, HasFDerivAt (fun p : ℝ × ℝ => F (X p.1 p.2) (Y p.1 p.2))
      (Fx (X p.1 p.2) (Y p.1 p.2) • ((a1 + a3 * p.2) • fst' + (a2 + a3 * p.1) • snd') +
       Fy (X p.1 p.2) (Y p.1 p.2) • ((c1 + c3 * p.2) • fst' + (c2 + c3 * p.1) • snd')) p := by
    intro p
    have e := (h.der (X p.1 p.2, Y p.1 p.2)).comp p
      ((bil_der a0 a1 a2 a3 p).prodMk (bil_der c0 c1 c2 c3 p))
    refine e.congr_fderiv ?_
    ext <;> simp [fst', snd']
  have df : ∀ p : ℝ × ℝ, HasFDerivAt (fun p : ℝ × ℝ => F (X p.1 p.2) (Y p.1 p.2) * (c2 + c3 * p.1))
      (F (X p.1 p.2) (Y p.1 p.2) • (c3 • fst') + (c2 + c3 * p.1) •
        (Fx (X p.1 p.2) (Y p.1 p.2) • ((a1 + a3 * p.2) • fst' + (a2 + a3 * p.1) • snd') +
         Fy (X p.1 p.2) (Y p.1 p.2) • ((c1 + c3 * p.2) • fst' + (c2 + c3 * p.1) • snd'))) p :=
    fun p => (dG p).mul (aff_der c2 c3 fst' p)
  have dg : ∀ p : ℝ × ℝ, HasFDerivAt (fun p : ℝ × ℝ => -(F (X p.1 p.2) (Y p.1 p.2) * (c1 + c3 * p.2)))
      (-(F (X p.1 p.2) (Y p.1 p.2) • (c3 • snd') + (c1 + c3 * p.2) •
        (Fx (X p.1 p.2) (Y p.1 p.2) • ((a1 + a3 * p.2) • fst' + (a2 + a3 * p.1) • snd') +
         Fy (X p.1 p.2) (Y p.1 p.2) • ((c1 + c3 * p.2) • fst' + (c2 + c3 * p.1) • snd')))) p :=
    fun p => ((dG p).mul (aff_der c1 c3 snd' p)).neg
  have key := integral2_divergence_prod_of_hasFDerivAt
    (fun p : ℝ × ℝ => F (X p.1 p.2) (Y p.1 p.2) * (c2 + c3 * p.1))
    (fun p : ℝ × ℝ => -(F (X p.1 p.2) (Y p.1 p.2) * (c1 + c3 * p.2)))
    _ _ (-1) (-1) 1 1
    (cF.mul (by fun_prop)).continuousOn (cF.mul (by fun_prop)).neg.continuousOn
    (fun p _ => df p) (fun p _ => dg p) ?_
  · rw [← key]
    congr 1; funext u; congr 1; funext v
    simp [fst', snd']; ring
  · refine (Continuous.continuousOn ?_).integrableOn_compact (isCompact_uIcc.prod isCompact_uIcc)
    simp [fst', snd']
    have l1 : Continuous fun x : ℝ × ℝ => c2 + c3 * x.1 := by fun_prop
    have l2 : Continuous fun x : ℝ × ℝ => c1 + c3 * x.2 := by fun_prop
    have l3 : Continuous fun x : ℝ × ℝ => a1 + a3 * x.2 := by fun_prop
    have l4 : Continuous fun x : ℝ × ℝ => a2 + a3 * x.1 := by fun_prop
    exact ((cF.mul continuous_const).add ((l1.mul (cFx.mul l3)).add (l1.mul (cFy.mul l2)))).add
      (((l2.mul (cFy.mul l1)).neg.add (l2.mul (cFx.mul l4)).neg).add (cF.mul continuous_const).neg)

theorem int_half (f : ℝ → ℝ) : ∫ t in (0 : ℝ)..1, f t = 1 / 2 * ∫ s in (-1 : ℝ)..1, f (1 / 2 + 1 / 2 * s) := by
  rw [intervalIntegral.mul_integral_comp_add_mul]
  norm_num

theorem int_flip (f : ℝ → ℝ) : ∫ t in (0 : ℝ)..1, f (1 - t) = ∫ t in (0 : ℝ)..1, f t := by
  rw [intervalIntegral.integral_comp_sub_left]
  norm_num

/-- The segment integral with the parameter in `[-1, 1]`. -/
theorem edgeInt_half (F : ℝ → ℝ → ℝ) (p q : P2 ℝ) : edgeInt F p q =
    ∫ s in (-1 : ℝ)..1, F ((p.x + q.x) / 2 + (q.x - p.x) / 2 * s) ((p.y + q.y) / 2 + (q.y - p.y) / 2 * s) *
      ((q.y - p.y) / 2) := by
  unfold edgeInt
  rw [int_half, ← intervalIntegral.integral_const_mul]
  congr 1; funext s
  have e1 : p.x + (1 / 2 + 1 / 2 * s) * (q.x - p.x) = (p.x + q.x) / 2 + (q.x - p.x) / 2 * s := by ring
  have e2 : p.y + (1 / 2 + 1 / 2 * s) * (q.y - p.y) = (p.y + q.y) / 2 + (q.y - p.y) / 2 * s := by ring
  rw [e1, e2]; ring

theorem edgeInt_swap (F : ℝ → ℝ → ℝ) (p q : P2 ℝ) : edgeInt F q p = -edgeInt F p q := by
  unfold edgeInt
  rw [← int_flip (fun t => F (p.x + t * (q.x - p.x)) (p.y + t * (q.y - p.y)) * (q.y - p.y)),
    ← intervalIntegral.integral_neg]
  congr 1; funext t
  have e1 : q.x + t * (p.x - q.x) = p.x + (1 - t) * (q.x - p.x) := by ring
  have e2 : q.y + t * (p.y - q.y) = p.y + (1 - t) * (q.y - p.y) := by ring
  rw [e1, e2]; ring

theorem edgeInt_self (F : ℝ → ℝ → ℝ) (p : P2 ℝ) : edgeInt F p p = 0 := by simp [edgeInt]

/-- Green's formula for a quadrilateral. -/
theorem green {F Fx Fy : ℝ → ℝ → ℝ} (h : C1 F Fx Fy) (p0 p1 p2 p3 : P2 ℝ) :
    (∫ u in (-1 : ℝ)..1, ∫ v in (-1 : ℝ)..1, Fx (bilMap p0 p1 p2 p3 (u, v)).x (bilMap p0 p1 p2 p3 (u, v)).y *
      jac p0 p1 p2 p3 u v) =
    edgeInt F p0 p1 + edgeInt F p1 p2 + edgeInt F p2 p3 + edgeInt F p3 p0 := by
  have k := green_raw h (b0 p0.x p1.x p2.x p3.x) (bx p0.x p1.x p2.x p3.x) (by' p0.x p1.x p2.x p3.x)
    (bxy p0.x p1.x p2.x p3.x) (b0 p0.y p1.y p2.y p3.y) (bx p0.y p1.y p2.y p3.y) (by' p0.y p1.y p2.y p3.y)
    (bxy p0.y p1.y p2.y p3.y)
  simp only at k
  simp only [bilMap, bil_eq, jac_eq]
  rw [k, edgeInt_swap F p3 p2, edgeInt_swap F p0 p3]
  simp only [edgeInt_half, intervalIntegral.integral_neg]
  have e : ∀ f1 f2 f3 f4 g1 g2 g3 g4 : ℝ → ℝ, f1 = g1 → f2 = g2 → f3 = g3 → f4 = g4 →
      -(∫ u in (-1 : ℝ)..1, f1 u) - -(∫ u in (-1 : ℝ)..1, f2 u) + (∫ u in (-1 : ℝ)..1, f3 u) -
        (∫ u in (-1 : ℝ)..1, f4 u) =
      (∫ u in (-1 : ℝ)..1, g2 u) + (∫ u in (-1 : ℝ)..1, g3 u) + -(∫ u in (-1 : ℝ)..1, g1 u) +
        -(∫ u in (-1 : ℝ)..1, g4 u) := by
    rintro f1 f2 f3 f4 _ _ _ _ rfl rfl rfl rfl; ring
  have c : ∀ {a a' b b' w w' : ℝ}, a = a' → b = b' → w = w' → F a b * w = F a' b' * w' := by
    rintro _ _ _ _ _ _ rfl rfl rfl; rfl
  apply e <;> funext s <;> apply c <;> simp only [b0, bx, by', bxy] <;> ring

end Verif.PlaneIntegral
