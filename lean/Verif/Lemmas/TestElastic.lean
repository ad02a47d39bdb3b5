import Verif.Lemmas.TestVector
/-!
The data of the elasticity test problems.
-/
namespace Verif.Lemmas.TestData
open Verif.TestData Verif.Spec.TestData Real Finset

/-- The code's law is the law of linear elasticity. -/
theorem hooke_eq {d : Nat} (lam mu : ℝ) (g : Fin d → Fin d → ℝ) : hooke lam mu g = elastic lam mu g := by
  funext i j
  unfold hooke elastic
  have h : ∑ k, 1 / 2 * (g k k + g k k) = ∑ k, g k k := Finset.sum_congr rfl fun k _ => by ring
  rw [h]
  split_ifs <;> ring

/-! ### Linear elasticity -/

noncomputable def elaJxx (lam x y : ℝ) : ℝ :=
  -2 * π * sin (2 * π * x) * sin (2 * π * y) + π / (1 + lam) * cos (π * x) * sin (π * y)
noncomputable def elaJxy (lam x y : ℝ) : ℝ :=
  2 * π * (cos (2 * π * x) - 1) * cos (2 * π * y) + π / (1 + lam) * sin (π * x) * cos (π * y)
noncomputable def elaJyx (lam x y : ℝ) : ℝ :=
  -2 * π * (cos (2 * π * y) - 1) * cos (2 * π * x) + π / (1 + lam) * cos (π * x) * sin (π * y)
noncomputable def elaJyy (lam x y : ℝ) : ℝ :=
  2 * π * sin (2 * π * x) * sin (2 * π * y) + π / (1 + lam) * sin (π * x) * cos (π * y)

noncomputable def elaJ2 (lam : ℝ) (p : Pt 2) : Fin 2 → Fin 2 → ℝ :=
  ![![elaJxx lam (p 0) (p 1), elaJxy lam (p 0) (p 1)], ![elaJyx lam (p 0) (p 1), elaJyy lam (p 0) (p 1)]]
noncomputable def elaJ3 (lam : ℝ) (p : Pt 3) : Fin 3 → Fin 3 → ℝ :=
  ![![elaJxx lam (p 0) (p 1), elaJxy lam (p 0) (p 1), 0], ![elaJyx lam (p 0) (p 1), elaJyy lam (p 0) (p 1), 0], ![0, 0, 0]]

theorem elaJac2 (lam : ℝ) (p : Pt 2) : IsJacAt (elaSol2 lam) (elaJ2 lam p) p := by
  apply isJac_two <;> pdone [elaSol2, elaUx, elaUy, elaJ2, elaJxx, elaJxy, elaJyx, elaJyy]

theorem elaJac3 (lam : ℝ) (p : Pt 3) : IsJacAt (elaSol3 lam) (elaJ3 lam p) p := by
  apply isJac_three <;> pdone [elaSol3, elaUx, elaUy, elaJ3, elaJxx, elaJxy, elaJyx, elaJyy]

theorem elaBal2 {lam : ℝ} (mu : ℝ) (hl : lam + 1 ≠ 0) : Balance (fun p => elastic lam mu (elaJ2 lam p)) (elaLoad2 lam mu) := by
  intro p
  have hl' : 1 + lam ≠ 0 := by rwa [add_comm]
  have h : cos (π * (p 0 + p 1)) = cos (π * p 0) * cos (π * p 1) - sin (π * p 0) * sin (π * p 1) := by
    rw [mul_add, Real.cos_add]
  apply forall_two
  all_goals
    apply isDiv_two
    · simp only [elastic, Fin.sum_univ_two, elaJ2, Matrix.cons_val, elaJxx, elaJxy, elaJyx, elaJyy]
      simp
      pd
    · simp only [elastic, Fin.sum_univ_two, elaJ2, Matrix.cons_val, elaJxx, elaJxy, elaJyx, elaJyy]
      simp
      pd
    · simp [elaLoad2, elaFx, elaFy, h]
      field_simp
      ring

theorem elaBal3 {lam : ℝ} (mu : ℝ) (hl : lam + 1 ≠ 0) : Balance (fun p => elastic lam mu (elaJ3 lam p)) (elaLoad3 lam mu) := by
  intro p
  have hl' : 1 + lam ≠ 0 := by rwa [add_comm]
  have h : cos (π * (p 0 + p 1)) = cos (π * p 0) * cos (π * p 1) - sin (π * p 0) * sin (π * p 1) := by
    rw [mul_add, Real.cos_add]
  apply forall_three
  all_goals
    apply isDiv_three
    · simp only [elastic, Fin.sum_univ_three, elaJ3, Matrix.cons_val, elaJxx, elaJxy, elaJyx, elaJyy]
      simp
      pd
    · simp only [elastic, Fin.sum_univ_three, elaJ3, Matrix.cons_val, elaJxx, elaJxy, elaJyx, elaJyy]
      simp
      pd
    · simp only [elastic, Fin.sum_univ_three, elaJ3, Matrix.cons_val, elaJxx, elaJxy, elaJyx, elaJyy]
      simp
      pd
    · simp [elaLoad3, elaFx, elaFy, h]
      try (field_simp; ring)

/-- What the code's stress is, entry by entry, compared with the stress of its displacement. -/
theorem elaSigma2_eq {lam : ℝ} (mu : ℝ) (hl : lam + 1 ≠ 0) (p : Pt 2) (i j : Fin 2) :
    elaSigma2 lam mu p i j = elastic lam mu (elaJ2 lam p) i j +
      if i = j then 0 else mu * (4 * π / (lam + 1)) * (cos (2 * π * p 1) - 1) * cos (2 * π * p 0) := by
  have hl' : 1 + lam ≠ 0 := by rwa [add_comm]
  rw [elaSigma2, hooke_eq]
  revert j
  revert i
  apply forall_two <;> apply forall_two <;>
  · simp [elastic, elaJ2, elaJxx, elaJxy, elaJyx, elaJyy, elaG11, elaG12, elaG21, elaG22]
    field_simp
    ring

theorem elaSigma3_eq {lam : ℝ} (mu : ℝ) (hl : lam + 1 ≠ 0) (p : Pt 3) (i j : Fin 3) :
    elaSigma3 lam mu p i j = elastic lam mu (elaJ3 lam p) i j +
      if i = j ∨ i = 2 ∨ j = 2 then 0 else mu * (4 * π / (lam + 1)) * (cos (2 * π * p 1) - 1) * cos (2 * π * p 0) := by
  have hl' : 1 + lam ≠ 0 := by rwa [add_comm]
  rw [elaSigma3, hooke_eq]
  revert j
  revert i
  apply forall_three <;> apply forall_three <;>
  · simp [-mul_eq_mul_left_iff, -mul_eq_mul_right_iff, elastic, Fin.sum_univ_three, elaJ3, elaJxx, elaJxy, elaJyx, elaJyy, elaG11, elaG12, elaG21, elaG22]
    try (field_simp; ring)

theorem elaSigma2_wrong {lam mu : ℝ} (hl : lam + 1 ≠ 0) (hm : mu ≠ 0) :
    ¬ IsStress lam mu (elaSol2 lam) (elaSigma2 lam mu) := by
  intro h
  obtain ⟨G, hG, hS⟩ := h ![0, 1 / 2]
  rw [isJac_unique hG (elaJac2 lam _)] at hS
  have h1 := congrFun (congrFun hS 0) 1
  rw [elaSigma2_eq mu hl] at h1
  have h2 : cos (2 * π * 2⁻¹) = -1 := by rw [show 2 * π * 2⁻¹ = π by ring, Real.cos_pi]
  have h3 : mu * (4 * π / (lam + 1)) * (-1 - 1) = 0 := by
    simpa [h2] using h1
  have h4 : 4 * π / (lam + 1) ≠ 0 := div_ne_zero (by positivity) hl
  exact mul_ne_zero (mul_ne_zero hm h4) (by norm_num) h3

theorem elaSigma3_wrong {lam mu : ℝ} (hl : lam + 1 ≠ 0) (hm : mu ≠ 0) :
    ¬ IsStress lam mu (elaSol3 lam) (elaSigma3 lam mu) := by
  intro h
  obtain ⟨G, hG, hS⟩ := h ![0, 1 / 2, 0]
  rw [isJac_unique hG (elaJac3 lam _)] at hS
  have h1 := congrFun (congrFun hS 0) 1
  rw [elaSigma3_eq mu hl] at h1
  have h2 : cos (2 * π * 2⁻¹) = -1 := by rw [show 2 * π * 2⁻¹ = π by ring, Real.cos_pi]
  have h3 : mu * (4 * π / (lam + 1)) * (-1 - 1) = 0 := by
    simpa [h2] using h1
  have h4 : 4 * π / (lam + 1) ≠ 0 := div_ne_zero (by positivity) hl
  exact mul_ne_zero (mul_ne_zero hm h4) (by norm_num) h3

/-! ### Contact -/

noncomputable def conJxx (lam x y : ℝ) : ℝ := exp (x * y) * (1 + x * y) * (1 + 1 / (1 + lam)) / 6
noncomputable def conJxy (lam x y : ℝ) : ℝ := x * x * exp (x * y) * (1 + 1 / (1 + lam)) / 6
noncomputable def conJyx (lam x y : ℝ) : ℝ := y * y * exp (x * y) * (-1 + 1 / (1 + lam)) / 6
noncomputable def conJyy (lam x y : ℝ) : ℝ := exp (x * y) * (1 + x * y) * (-1 + 1 / (1 + lam)) / 6

noncomputable def conJ2 (lam : ℝ) (p : Pt 2) : Fin 2 → Fin 2 → ℝ :=
  ![![conJxx lam (p 0) (p 1), conJxy lam (p 0) (p 1)], ![conJyx lam (p 0) (p 1), conJyy lam (p 0) (p 1)]]
noncomputable def conJ3 (lam : ℝ) (p : Pt 3) : Fin 3 → Fin 3 → ℝ :=
  ![![conJxx lam (p 0) (p 2), 0, conJxy lam (p 0) (p 2)], ![0, 0, 0], ![conJyx lam (p 0) (p 2), 0, conJyy lam (p 0) (p 2)]]

theorem conJac2 (lam : ℝ) (p : Pt 2) : IsJacAt (conSol2 lam) (conJ2 lam p) p := by
  apply isJac_two <;> pdone [conSol2, conU, conJ2, conJxx, conJxy, conJyx, conJyy]

theorem conJac3 (lam : ℝ) (p : Pt 3) : IsJacAt (conSol3 lam) (conJ3 lam p) p := by
  apply isJac_three <;> pdone [conSol3, conU, conJ3, conJxx, conJxy, conJyx, conJyy]

theorem conBal2 {lam : ℝ} (mu : ℝ) (hl : 1 + lam ≠ 0) : Balance (fun p => elastic lam mu (conJ2 lam p)) (conLoad2 lam mu 1) := by
  intro p
  apply forall_two
  all_goals
    apply isDiv_two
    · simp only [elastic, Fin.sum_univ_two, conJ2, Matrix.cons_val, conJxx, conJxy, conJyx, conJyy]
      simp
      pd
    · simp only [elastic, Fin.sum_univ_two, conJ2, Matrix.cons_val, conJxx, conJxy, conJyx, conJyy]
      simp
      pd
    · simp [conLoad2, conF]
      field_simp
      ring

theorem conBal3 {lam : ℝ} (mu : ℝ) (hl : 1 + lam ≠ 0) : Balance (fun p => elastic lam mu (conJ3 lam p)) (conLoad3 lam mu 1) := by
  intro p
  apply forall_three
  all_goals
    apply isDiv_three
    · simp only [elastic, Fin.sum_univ_three, conJ3, Matrix.cons_val, conJxx, conJxy, conJyx, conJyy]
      simp
      pd
    · simp only [elastic, Fin.sum_univ_three, conJ3, Matrix.cons_val, conJxx, conJxy, conJyx, conJyy]
      simp
      pd
    · simp only [elastic, Fin.sum_univ_three, conJ3, Matrix.cons_val, conJxx, conJxy, conJyx, conJyy]
      simp
      pd
    · simp [conLoad3, conF]
      try (field_simp; ring)

/-! ### Hyperelasticity -/

noncomputable def hypJ2 (lam : ℝ) (p : Pt 2) : Fin 2 → Fin 2 → ℝ :=
  ![![1 / lam + hypAlpha, 0], ![-4 * π * hypAlpha * sin (2 * π * p 0), 1 / lam - hypAlpha / (1 + hypAlpha)]]

theorem hypJac2 (lam : ℝ) (p : Pt 2) : IsJacAt (hypSol2 lam) (hypJ2 lam p) p := by
  apply isJac_two <;> pdone [hypSol2, hypJ2]

noncomputable def hypJ3 (lam : ℝ) (p : Pt 3) : Fin 3 → Fin 3 → ℝ :=
  ![![1 / lam + hypAlpha, hypAlpha * (π * cos (π * p 1)), 0],
    ![0, -(1 / lam + (hypAlpha + hypAlpha + hypAlpha * hypAlpha) / (1 + hypAlpha + hypAlpha + hypAlpha * hypAlpha)), 0],
    ![hypAlpha * (π * cos (π * p 0)), 0, 1 / lam + hypAlpha]]

theorem hypBal2 (lam mu k : ℝ) (p : Pt 2) : ∀ i, IsDivAt (fun q j => mu * (idMat i j + hypJ2 lam q i j) +
    k * cof2 (fun a b => idMat a b + hypJ2 lam q a b) i j) p (-hypLoad2 mu p i) := by
  apply forall_two
  all_goals
    apply isDiv_two
    · simp only [cof2, hypJ2, Matrix.cons_val, idMat]
      pd
    · simp only [cof2, hypJ2, Matrix.cons_val, idMat]
      pd
    · simp [hypLoad2]
      try ring

theorem hypBal3 (lam mu k : ℝ) (p : Pt 3) : ∀ i, IsDivAt (fun q j => mu * (idMat i j + hypJ3 lam q i j) +
    k * cof3 (fun a b => idMat a b + hypJ3 lam q a b) i j) p (-hypLoad3 mu p i) := by
  apply forall_three
  all_goals
    apply isDiv_three
    · simp only [cof3, hypJ3, Matrix.cons_val, idMat]
      pd
    · simp only [cof3, hypJ3, Matrix.cons_val, idMat]
      pd
    · simp only [cof3, hypJ3, Matrix.cons_val, idMat]
      pd
    · simp [hypLoad3]
      try ring

theorem hypDet2 (lam : ℝ) (p : Pt 2) : det2 (fun a b => idMat a b + hypJ2 lam p a b) =
    (1 + (1 / lam + hypAlpha)) * (1 + (1 / lam - hypAlpha / (1 + hypAlpha))) := by
  simp [det2, idMat, hypJ2]

theorem hypDet3 (lam : ℝ) (p : Pt 3) : det3 (fun a b => idMat a b + hypJ3 lam p a b) =
    (1 + (1 / lam + hypAlpha)) * (1 - (1 / lam + (hypAlpha + hypAlpha + hypAlpha * hypAlpha) /
      (1 + hypAlpha + hypAlpha + hypAlpha * hypAlpha))) * (1 + (1 / lam + hypAlpha)) := by
  simp [det3, cof3, idMat, hypJ3]
  ring

theorem hypJac3 (lam : ℝ) (p : Pt 3) : IsJacAt (hypSol3 lam) (hypJ3 lam p) p := by
  apply isJac_three <;> pdone [hypSol3, hypJ3]

end Verif.Lemmas.TestData
