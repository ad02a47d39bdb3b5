import Verif.Lemmas.TestScalar
/-!
The data of the vector-valued test problems.
-/
namespace Verif.Lemmas.TestData
open Verif.TestData Verif.Spec.TestData Real Finset

theorem isJac_two {u : (Fin 2 → ℝ) → Fin 2 → ℝ} {G : Fin 2 → Fin 2 → ℝ} {p : Fin 2 → ℝ}
    (h00 : Partial (fun q => u q 0) 0 p (G 0 0)) (h01 : Partial (fun q => u q 0) 1 p (G 0 1))
    (h10 : Partial (fun q => u q 1) 0 p (G 1 0)) (h11 : Partial (fun q => u q 1) 1 p (G 1 1)) : IsJacAt u G p := by
  intro i
  fin_cases i
  · exact isGrad_two h00 h01
  · exact isGrad_two h10 h11

theorem isJac_three {u : (Fin 3 → ℝ) → Fin 3 → ℝ} {G : Fin 3 → Fin 3 → ℝ} {p : Fin 3 → ℝ}
    (h00 : Partial (fun q => u q 0) 0 p (G 0 0)) (h01 : Partial (fun q => u q 0) 1 p (G 0 1))
    (h02 : Partial (fun q => u q 0) 2 p (G 0 2))
    (h10 : Partial (fun q => u q 1) 0 p (G 1 0)) (h11 : Partial (fun q => u q 1) 1 p (G 1 1))
    (h12 : Partial (fun q => u q 1) 2 p (G 1 2))
    (h20 : Partial (fun q => u q 2) 0 p (G 2 0)) (h21 : Partial (fun q => u q 2) 1 p (G 2 1))
    (h22 : Partial (fun q => u q 2) 2 p (G 2 2)) : IsJacAt u G p := by
  intro i
  fin_cases i
  · exact isGrad_three h00 h01 h02
  · exact isGrad_three h10 h11 h12
  · exact isGrad_three h20 h21 h22

theorem isJac_unique {d : Nat} {u : (Fin d → ℝ) → Fin d → ℝ} {G G' : Fin d → Fin d → ℝ} {p : Fin d → ℝ}
    (h : IsJacAt u G p) (h' : IsJacAt u G' p) : G = G' := funext fun i => isGrad_unique (h i) (h' i)

theorem forall_two {P : Fin 2 → Prop} (h0 : P 0) (h1 : P 1) : ∀ i, P i := by
  intro i
  fin_cases i
  · exact h0
  · exact h1

theorem forall_three {P : Fin 3 → Prop} (h0 : P 0) (h1 : P 1) (h2 : P 2) : ∀ i, P i := by
  intro i
  fin_cases i
  · exact h0
  · exact h1
  · exact h2

/-! ### Vector Laplacian -/

theorem vlapJac2 (p : Pt 2) : IsJacAt vlapSol2 (vlapGrad2 p) p := by
  apply isJac_two <;> pdone [vlapSol2, vlapGrad2]

theorem vlapDiv2 (lam : ℝ) (p : Pt 2) : ∀ i, IsDivAt (fun q j => lam * vlapGrad2 q i j) p (-vlapLoad2 lam p i) := by
  apply forall_two <;> div2 [vlapLoad2, vlapGrad2]

theorem vlapJac3 (p : Pt 3) : IsJacAt vlapSol3 (vlapGrad3 p) p := by
  apply isJac_three <;> pdone [vlapSol3, vlapGrad3]

theorem vlapDiv3 (lam : ℝ) (p : Pt 3) : ∀ i, IsDivAt (fun q j => lam * vlapGrad3 q i j) p (-vlapLoad3 lam p i) := by
  apply forall_three <;> div3 [vlapLoad3, vlapGrad3]

/-! ### Stokes -/

/-- The Jacobian of the polynomial velocity. -/
noncomputable def stk0G (p : Pt 2) : Fin 2 → Fin 2 → ℝ :=
  ![![stkB (p 0) * stkB (p 1), stkA (p 0) * stkC (p 1)], ![-stkA (p 1) * stkC (p 0), -stkB (p 1) * stkB (p 0)]]

theorem stk0Jac (p : Pt 2) : IsJacAt stk0V (stk0G p) p := by
  apply isJac_two <;> pdone [stk0V, stk0G, stkA, stkB, stkC]

/-- The gradient of the pressure. -/
noncomputable def stk0dP (p : Pt 2) : Fin 2 → ℝ := ![5 * p 0 ^ 4, 5 * p 1 ^ 4]

theorem stk0Grad (p : Pt 2) : IsGradAt stk0P (stk0dP p) p := by
  apply isGrad_two <;> pdone [stk0P, stk0dP]

theorem stk0Div (p : Pt 2) : ∀ i, IsDivAt (fun q j => stk0G q i j) p (stk0dP p i - stk0Rhs p i) := by
  apply forall_two <;> div2 [stk0G, stk0dP, stk0Rhs, stkA, stkB, stkC, stkD]

theorem stk0DivSym (p : Pt 2) : ∀ i, IsDivAt (fun q j => stk0G q i j + stk0G q j i) p (stk0dP p i - stk0Rhs p i) := by
  apply forall_two <;> div2 [stk0G, stk0dP, stk0Rhs, stkA, stkB, stkC, stkD]

theorem lowDiv (p : Pt 2) : ∀ i, IsDivAt (fun q j => stk0G q i j) p (-lowRhs p i) := by
  apply forall_two <;> div2 [stk0G, lowRhs, stkA, stkB, stkC, stkD]

/-- The Jacobian of the trigonometric velocity. -/
noncomputable def stk1G (p : Pt 2) : Fin 2 → Fin 2 → ℝ :=
  ![![2 * π * sin (2 * π * p 0) * cos (2 * π * p 0) * sin (2 * π * p 1) * cos (2 * π * p 1),
      π * sin (2 * π * p 0) ^ 2 * (cos (2 * π * p 1) ^ 2 - sin (2 * π * p 1) ^ 2)],
    ![-π * sin (2 * π * p 1) ^ 2 * (cos (2 * π * p 0) ^ 2 - sin (2 * π * p 0) ^ 2),
      -2 * π * sin (2 * π * p 1) * cos (2 * π * p 1) * sin (2 * π * p 0) * cos (2 * π * p 0)]]

theorem stk1Jac (p : Pt 2) : IsJacAt stk1V (stk1G p) p := by
  apply isJac_two <;> pdone [stk1V, stk1G]

theorem stk1Grad (p : Pt 2) : IsGradAt stk1P 0 p := by
  apply isGrad_two <;> pdone [stk1P]

/-- A divergence whose value is simplified with the two Pythagorean relations. -/
theorem stk1Div (p : Pt 2) : ∀ i, IsDivAt (fun q j => stk1G q i j) p (0 - stk1Rhs p i) := by
  have h0 : cos (2 * π * p 0) ^ 2 = 1 - sin (2 * π * p 0) ^ 2 := Real.cos_sq' _
  have h1 : cos (2 * π * p 1) ^ 2 = 1 - sin (2 * π * p 1) ^ 2 := Real.cos_sq' _
  apply forall_two
  · apply isDiv_two
    · simp only [stk1G, Matrix.cons_val]
      pd
    · simp only [stk1G, Matrix.cons_val]
      pd
    · simp [stk1Rhs]
      linear_combination (-4 * π ^ 2 * sin (2 * π * p 1) * cos (2 * π * p 1)) * h0
  · apply isDiv_two
    · simp only [stk1G, Matrix.cons_val]
      pd
    · simp only [stk1G, Matrix.cons_val]
      pd
    · simp [stk1Rhs]
      linear_combination (4 * π ^ 2 * sin (2 * π * p 0) * cos (2 * π * p 0)) * h1

theorem stk1DivSym (p : Pt 2) : ∀ i, IsDivAt (fun q j => stk1G q i j + stk1G q j i) p (0 - stk1Rhs p i) := by
  have h0 : cos (2 * π * p 0) ^ 2 = 1 - sin (2 * π * p 0) ^ 2 := Real.cos_sq' _
  have h1 : cos (2 * π * p 1) ^ 2 = 1 - sin (2 * π * p 1) ^ 2 := Real.cos_sq' _
  apply forall_two
  · apply isDiv_two
    · simp only [stk1G, Matrix.cons_val]
      pd
    · simp only [stk1G, Matrix.cons_val]
      pd
    · simp [stk1Rhs]
      linear_combination (-4 * π ^ 2 * sin (2 * π * p 1) * cos (2 * π * p 1)) * h0
  · apply isDiv_two
    · simp only [stk1G, Matrix.cons_val]
      pd
    · simp only [stk1G, Matrix.cons_val]
      pd
    · simp [stk1Rhs]
      linear_combination (4 * π ^ 2 * sin (2 * π * p 0) * cos (2 * π * p 0)) * h1

/-! ### Maxwell -/

/-- The Jacobian of the field. -/
noncomputable def mxJ (p : Pt 3) : Fin 3 → Fin 3 → ℝ :=
  ![![0, 0, 0], ![0, 0, 0],
    ![p 1 * sin (π * p 1) * (sin (π * p 0) + π * p 0 * cos (π * p 0)),
      p 0 * sin (π * p 0) * (sin (π * p 1) + π * p 1 * cos (π * p 1)), 0]]

theorem mxJac (p : Pt 3) : IsJacAt mxSol (mxJ p) p := by
  apply isJac_three <;> pdone [mxSol, mxJ]

/-- The Jacobian of its curl. -/
noncomputable def mxJC (p : Pt 3) : Fin 3 → Fin 3 → ℝ :=
  ![![(sin (π * p 0) + π * p 0 * cos (π * p 0)) * (sin (π * p 1) + π * p 1 * cos (π * p 1)),
      p 0 * sin (π * p 0) * (2 * π * cos (π * p 1) - π * π * p 1 * sin (π * p 1)), 0],
    ![-p 1 * sin (π * p 1) * (2 * π * cos (π * p 0) - π * π * p 0 * sin (π * p 0)),
      -(sin (π * p 1) + π * p 1 * cos (π * p 1)) * (sin (π * p 0) + π * p 0 * cos (π * p 0)), 0], ![0, 0, 0]]

theorem mxJacCurl (p : Pt 3) : IsJacAt mxCurl (mxJC p) p := by
  apply isJac_three <;> pdone [mxCurl, mxJC]

theorem mx_isCurl : IsCurl mxSol mxCurl := by
  intro p
  refine ⟨mxJ p, mxJac p, ?_, ?_, ?_⟩ <;> simp [mxCurl, mxJ]

theorem mx_curlcurl (omega : ℝ) : IsCurl mxCurl fun p i => mxRhs omega p i + omega * omega * mxSol p i := by
  intro p
  refine ⟨mxJC p, mxJacCurl p, ?_, ?_, ?_⟩
  · simp [mxRhs, mxSol, mxJC]
  · simp [mxRhs, mxSol, mxJC]
  · simp [mxRhs, mxSol, mxJC]
    ring

/-- The gradient in two dimensions. -/
noncomputable def mx2G (omega : ℝ) (p : Pt 2) : Fin 2 → ℝ :=
  ![omega * cos (omega * p 0) * sin (omega * p 1), omega * sin (omega * p 0) * cos (omega * p 1)]

theorem mx2Grad (omega : ℝ) (p : Pt 2) : IsGradAt (mx2Sol omega) (mx2G omega p) p := by
  apply isGrad_two <;> pdone [mx2Sol, mx2G]

theorem mx2Div (omega : ℝ) (p : Pt 2) : IsDivAt (fun q i => ∑ j, idMat i j * mx2G omega q j) p
    (-(omega * omega) * mx2Sol omega p - mx2Rhs omega p) := by
  div2 [mx2G, mx2Sol, mx2Rhs, idMat]

end Verif.Lemmas.TestData
