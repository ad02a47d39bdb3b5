import Verif.Model.TestData
import Verif.Lemmas.TestExpr
import Mathlib.Tactic.FieldSimp
import Mathlib.Tactic.Linarith
import Mathlib.Tactic.LinearCombination
/-!
The data of the scalar test problems.
-/
namespace Verif.Lemmas.TestData
open Verif.TestData Verif.Spec.TestData Real

/-- Proves a `Partial` statement about a concrete function: the definitions are unfolded, the rules applied and the
resulting equation of numbers proved by `ring`. -/
macro "pdone" "[" ds:Lean.Parser.Tactic.simpLemma,* "]" : tactic =>
  `(tactic| (apply Pd.conv
             · simp only [Fin.sum_univ_two, Fin.sum_univ_three, Matrix.cons_val, $ds,*]
               pd
             · simp [-mul_eq_mul_left_iff, -mul_eq_mul_right_iff, Fin.sum_univ_two, Fin.sum_univ_three, $ds,*] <;> ring))

/-- The same for a divergence in two dimensions. -/
macro "div2" "[" ds:Lean.Parser.Tactic.simpLemma,* "]" : tactic =>
  `(tactic| (apply isDiv_two
             · simp only [Fin.sum_univ_two, Matrix.cons_val, $ds,*]
               pd
             · simp only [Fin.sum_univ_two, Matrix.cons_val, $ds,*]
               pd
             · simp [-mul_eq_mul_left_iff, -mul_eq_mul_right_iff, Fin.sum_univ_two, $ds,*] <;> ring))

/-- The same for a divergence in three dimensions. -/
macro "div3" "[" ds:Lean.Parser.Tactic.simpLemma,* "]" : tactic =>
  `(tactic| (apply isDiv_three
             · simp only [Fin.sum_univ_three, Matrix.cons_val, $ds,*]
               pd
             · simp only [Fin.sum_univ_three, Matrix.cons_val, $ds,*]
               pd
             · simp only [Fin.sum_univ_three, Matrix.cons_val, $ds,*]
               pd
             · simp [-mul_eq_mul_left_iff, -mul_eq_mul_right_iff, Fin.sum_univ_three, $ds,*] <;> ring))

theorem isGrad1 (p : Pt 1) : IsGradAt sol1 (grad1 p) p := by
  refine isGrad_one ?_
  pdone [sol1, grad1]

theorem isGrad2 (p : Pt 2) : IsGradAt sol2 (grad2 p) p := by
  refine isGrad_two ?_ ?_ <;> pdone [sol2, grad2]

theorem isGrad3 (p : Pt 3) : IsGradAt sol3 (grad3 p) p := by
  refine isGrad_three ?_ ?_ ?_ <;> pdone [sol3, grad3]

theorem divRhs2 (D : Fin 2 → Fin 2 → ℝ) (p : Pt 2) :
    IsDivAt (fun q i => ∑ j, D i j * grad2 q j) p (-rhs2 D p) := by
  div2 [grad2, rhs2]

theorem divRhs1 (p : Pt 1) (D) : IsDivAt (fun q i => ∑ j, idMat i j * grad1 q j) p (-rhs1 D p) := by
  apply isDiv_one
  · simp only [Finset.univ_unique, Fin.default_eq_zero, Finset.sum_singleton, grad1, Matrix.cons_val]
    pd
  · simp [rhs1, idMat]
    ring

theorem divRhs3 (p : Pt 3) (D) : IsDivAt (fun q i => ∑ j, idMat i j * grad3 q j) p (-rhs3 D p) := by
  div3 [grad3, rhs3, idMat]

theorem divVar2 (p : Pt 2) : IsDivAt (fun q i => ∑ j, varTens2 i j * grad2 q j) p (-varRhs2 p) := by
  div2 [grad2, varRhs2, varTens2]

theorem divVar3 (p : Pt 3) : IsDivAt (fun q i => ∑ j, varTens3 i j * grad3 q j) p (-varRhs3 p) := by
  div3 [grad3, varRhs3, varTens3]

theorem divHelm2 (p : Pt 2) :
    IsDivAt (fun q i => ∑ j, idMat i j * grad2 q j) p (-(helmOmega * helmOmega) * sol2 p - helmRhs2 p) := by
  div2 [grad2, helmRhs2, helmOmega, sol2, idMat]

theorem divHelm3 (p : Pt 3) :
    IsDivAt (fun q i => ∑ j, idMat i j * grad3 q j) p (-(helmOmega * helmOmega) * sol3 p - helmRhs3 p) := by
  div3 [grad3, helmRhs3, helmOmega, sol3, idMat]

/-- The gradient of the function of the Nitsche test. -/
noncomputable def nitGrad (p : Pt 2) : Fin 2 → ℝ := ![-π * sin (π * p 0) * cos (π * p 1), -π * cos (π * p 0) * sin (π * p 1)]

theorem isGradNit (p : Pt 2) : IsGradAt nitSol (nitGrad p) p := by
  refine isGrad_two ?_ ?_ <;> pdone [nitSol, nitGrad]

theorem divNit (p : Pt 2) : IsDivAt (fun q i => ∑ j, idMat i j * nitGrad q j) p (-nitRhs p) := by
  div2 [nitGrad, nitRhs, idMat]

theorem isGradTra1 (p : Pt 3) : IsGradAt traU1 (traG1 p) p := by
  refine isGrad_three ?_ ?_ ?_ <;> pdone [traU1, traG1]

theorem isGradTra2 (p : Pt 3) : IsGradAt traU2 (traG2 p) p := by
  refine isGrad_three ?_ ?_ ?_ <;> pdone [traU2, traG2]

theorem divTra1 (p : Pt 3) : IsDivAt (fun q i => ∑ j, idMat i j * traG1 q j) p (-traF1 p) := by
  div3 [traG1, traF1, idMat]

theorem divTra2 (p : Pt 3) : IsDivAt (fun q i => ∑ j, idMat i j * traG2 q j) p (-traF2 p) := by
  div3 [traG2, traF2, idMat]

theorem sq_ne {p : Pt 2} (hp : p ≠ 0) : p 0 ^ 2 + p 1 ^ 2 ≠ 0 := by
  intro h
  have h0 : p 0 ^ 2 = 0 := by nlinarith [sq_nonneg (p 0), sq_nonneg (p 1)]
  have h1 : p 1 ^ 2 = 0 := by nlinarith [sq_nonneg (p 0), sq_nonneg (p 1)]
  refine hp (funext fun i => ?_)
  fin_cases i
  · exact pow_eq_zero_iff (n := 2) (by norm_num) |>.1 h0
  · exact pow_eq_zero_iff (n := 2) (by norm_num) |>.1 h1

theorem isGradTra (aa : ℝ) {p : Pt 2} (hp : p ≠ 0) : IsGradAt (traU aa) (traG p) p := by
  have h0 := sq_ne hp
  refine isGrad_two ?_ ?_
  all_goals
    apply Pd.conv
    · simp only [traU]
      pd
      exact h0
    · simp only [traG, Matrix.cons_val]
      field_simp
      simp
      ring

theorem divTra {p : Pt 2} (hp : p ≠ 0) : IsDivAt (fun q i => ∑ j, idMat i j * traG q j) p (-traF p) := by
  have h0 := sq_ne hp
  apply isDiv_two
  · simp only [Fin.sum_univ_two, traG, idMat, Matrix.cons_val]
    pd
    all_goals exact pow_ne_zero 2 h0
  · simp only [Fin.sum_univ_two, traG, idMat, Matrix.cons_val]
    pd
    all_goals exact pow_ne_zero 2 h0
  · simp only [traF]
    field_simp
    simp
    ring

/-! ### The heat equation -/

/-- The gradient. -/
noncomputable def heatGrad (K t : ℝ) (p : Pt 2) : Fin 2 → ℝ :=
  ![exp (-2 * π * π * K * K * t) * (π * K * cos (π * K * p 0)) * sin (π * K * p 1),
    exp (-2 * π * π * K * K * t) * sin (π * K * p 0) * (π * K * cos (π * K * p 1))]

theorem isGradHeat (K t : ℝ) (p : Pt 2) : IsGradAt (heatSol K t) (heatGrad K t p) p := by
  refine isGrad_two ?_ ?_ <;> pdone [heatSol, heatGrad]

theorem divHeat (K t : ℝ) (p : Pt 2) : IsDivAt (heatGrad K t) p (-2 * π * π * K * K * heatSol K t p) := by
  div2 [heatSol, heatGrad]

theorem timeHeat (K t : ℝ) (p : Pt 2) : HasDerivAt (fun s => heatSol K s p) (-2 * π * π * K * K * heatSol K t p) t := by
  have h := (((hasDerivAt_id' t).const_mul (-2 * π * π * K * K)).exp.mul_const (sin (π * K * p 0))).mul_const
    (sin (π * K * p 1))
  refine (h.congr_deriv ?_)
  simp only [heatSol]
  ring

end Verif.Lemmas.TestData
