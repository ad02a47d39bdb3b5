import Verif.Lemmas.Condensation
import Mathlib.LinearAlgebra.Matrix.Determinant.Basic
import Mathlib.Data.Rat.Defs
import Mathlib.Algebra.Field.Rat
/-!
Property C24. `F` is any solver with the contract assumed of Eigen's `LDLT`.
-/
namespace Verif.Props.Condensation
open Verif.Condensation Matrix
variable {K : Type} [CommRing K]

/-- C24. For a symmetric invertible cell block, the full local system holds exactly when the face part
solves the condensed system and the vector is what decondensation returns. A right-hand side of cell size
stands for zero on the faces. Both ways of decondensing agree. -/
theorem c24_condensation_partial (F : LDLT K) (nc nf : Nat) (lhs : Matrix (Fin (nc + nf)) (Fin (nc + nf)) K)
    (rhs : List K) (hsize : rhs.length = nc ∨ rhs.length = nc + nf)
    (hs : ∀ i j, topLeft lhs i j = topLeft lhs j i) (hu : IsUnit (topLeft lhs).det)
    (hok : F.success (topLeft lhs) = true) :
    ∃ c, condense F nc nf lhs rhs = .ok c ∧
      (∀ u, lhs *ᵥ u = (fun i : Fin (nc + nf) => rhs.getD i.val 0) ↔
        (c.AC *ᵥ (fun i => u (Fin.natAdd nc i)) = c.bC ∧
          decondense F nc nf lhs rhs (fun i => u (Fin.natAdd nc i)) = .ok u)) ∧
      (∀ y, decondense F nc nf lhs rhs y = .ok (decondenseWith c.AL c.bL y)) := by
  have hlt : ¬ rhs.length < nc := by omega
  have hne : ¬ (rhs.length ≠ nc ∧ rhs.length ≠ nc + nf) := by omega
  refine ⟨_, by unfold condense; rw [if_neg hne]; simp only [hok, if_true]; rfl, ?_, ?_⟩
  · intro u
    rw [full_iff, block_elim F _ _ _ _ hs hu hok]
    have hface : (fun i : Fin nf => rhs.getD (Fin.natAdd nc i) 0) =
        (if rhs.length = nc + nf then tail rhs nf else 0) := by
      funext i
      by_cases h : rhs.length = nc + nf
      · rw [if_pos h]
        simp [tail, h]
      · have : rhs.length = nc := by omega
        rw [if_neg h]
        simp [this]
    rw [hface]
    apply and_congr
    · rfl
    · simp only [decondense, if_neg hlt, Outcome.ok.injEq, join_eq_iff, and_true]
      rfl
  · intro y
    simp only [decondense, if_neg hlt, decondenseWith, Outcome.ok.injEq]
    rw [solve_linear F _ hs hu hok]

example : ∃ (lhs : Matrix (Fin (1 + 1)) (Fin (1 + 1)) ℚ), (∀ i j, topLeft lhs i j = topLeft lhs j i) ∧
    IsUnit (topLeft lhs).det ∧ (exactLDLT ℚ).success (topLeft lhs) = true := by
  refine ⟨1, ?_, ?_, ?_⟩
  · intro i j; rw [Subsingleton.elim i j]
  · simp [Matrix.det_unique, topLeft]
  · apply exactLDLT_success
    simp [Matrix.det_unique, topLeft, symL]

/-- C24. Any other size of the right-hand side is rejected, and so is a failed factorisation. -/
theorem c24_rejects_partial (F : LDLT K) (nc nf : Nat) (lhs : Matrix (Fin (nc + nf)) (Fin (nc + nf)) K) (rhs : List K) :
    (rhs.length ≠ nc → rhs.length ≠ nc + nf → (condense F nc nf lhs rhs).Throws) ∧
    (F.success (topLeft lhs) = false → (condense F nc nf lhs rhs).Throws) ∧
    (∀ y, rhs.length < nc ↔ (decondense F nc nf lhs rhs y).Throws) := by
  refine ⟨?_, ?_, ?_⟩
  · intro h1 h2
    simp [condense, h1, h2, Outcome.Throws]
  · intro h
    unfold condense
    split
    · simp [Outcome.Throws]
    · simp [h, Outcome.Throws]
  · intro y
    unfold decondense
    split <;> rename_i h <;> simp [Outcome.Throws, h]

example : ([1, 2, 3] : List ℚ).length ≠ 1 ∧ ([1, 2, 3] : List ℚ).length ≠ 1 + 1 := by decide

/-- C24. `schur` and `deschur`. -/
theorem c24_schur_partial (F : LDLT K) (nc nf : Nat) (lhs : Matrix (Fin (nc + nf)) (Fin (nc + nf)) K)
    (rhs : Fin (nc + nf) → K) (hs : ∀ i j, topLeft lhs i j = topLeft lhs j i) (hu : IsUnit (topLeft lhs).det)
    (hok : F.success (topLeft lhs) = true) :
    ∃ L r, schur F nc nf lhs rhs = .ok (L, r) ∧
      ∀ u, lhs *ᵥ u = rhs ↔ (L *ᵥ (fun i => u (Fin.natAdd nc i)) = r ∧
          deschur F nc nf lhs rhs (fun i => u (Fin.natAdd nc i)) = .ok u) := by
  refine ⟨_, _, by unfold schur; rw [if_pos hok], ?_⟩
  intro u
  rw [full_iff, block_elim F _ _ _ _ hs hu hok]
  apply and_congr Iff.rfl
  simp only [deschur, if_pos hok, Outcome.ok.injEq, join_eq_iff, and_true]

/-- C24. The virtual element version, with the boundary unknowns first. -/
theorem c24_vem_schur_partial (F : LDLT K) (nf nt : Nat) (lhs : Matrix (Fin (nf + nt)) (Fin (nf + nt)) K)
    (rhs : Fin (nf + nt) → K) (hs : ∀ i j, bottomRight lhs i j = bottomRight lhs j i)
    (hu : IsUnit (bottomRight lhs).det) (hok : F.success (bottomRight lhs) = true) :
    ∃ L r, vemSchur F nf nt lhs rhs = .ok (L, r) ∧
      ∀ u, lhs *ᵥ u = rhs ↔ (L *ᵥ (fun i => u (Fin.castAdd nt i)) = r ∧
          vemDeschur F nf nt lhs rhs (fun i => u (Fin.castAdd nt i)) = .ok u) := by
  refine ⟨_, _, by unfold vemSchur; rw [if_pos hok], ?_⟩
  intro u
  rw [full_iff, and_comm, add_comm (bottomLeft lhs *ᵥ _), add_comm (topLeft lhs *ᵥ _),
    block_elim F _ _ _ _ hs hu hok]
  apply and_congr Iff.rfl
  simp only [vemDeschur, if_pos hok, Outcome.ok.injEq, join_eq_iff, true_and]

example : ∃ (lhs : Matrix (Fin (1 + 1)) (Fin (1 + 1)) ℚ), (∀ i j, bottomRight lhs i j = bottomRight lhs j i) ∧
    IsUnit (bottomRight lhs).det ∧ (exactLDLT ℚ).success (bottomRight lhs) = true := by
  refine ⟨1, ?_, ?_, ?_⟩
  · intro i j; rw [Subsingleton.elim i j]
  · simp [Matrix.det_unique, bottomRight]
  · apply exactLDLT_success
    simp [Matrix.det_unique, bottomRight, symL]

/-- A system with an invertible cell block that is not symmetric. -/
def badSystem : Matrix (Fin (2 + 1)) (Fin (2 + 1)) ℚ := !![1, 1, 0; 0, 1, 0; 0, 0, 1]

/-- C24 fails for an invertible cell block that is not symmetric: `(0, 1, 0)` solves the full system, but
decondensation returns `(1, 1, 0)`, which does not. -/
theorem c24_nonsymmetric_violation (F : LDLT ℚ) (hok : F.success (topLeft badSystem) = true) :
    IsUnit (topLeft badSystem).det ∧
    badSystem *ᵥ ![0, 1, 0] = ![1, 1, 0] ∧
    (∃ c, condense F 2 1 badSystem [1, 1, 0] = .ok c ∧ c.AC *ᵥ ![0] = c.bC) ∧
    decondense F 2 1 badSystem [1, 1, 0] ![0] = .ok ![1, 1, 0] ∧
    badSystem *ᵥ ![1, 1, 0] ≠ ![1, 1, 0] := by
  have hL : symL (topLeft badSystem) = (1 : Matrix (Fin 2) (Fin 2) ℚ) := by
    funext i j
    fin_cases i <;> fin_cases j <;> simp [symL, topLeft, badSystem]
  have hsolve : ∀ b, F.solve (topLeft badSystem) b = b := by
    intro b
    have := F.solves (topLeft badSystem) b hok (by rw [hL]; simp)
    rwa [hL, Matrix.one_mulVec] at this
  refine ⟨?_, ?_, ⟨_, by unfold condense; simp only [hok]; rfl, ?_⟩, ?_, ?_⟩
  · have : (topLeft badSystem).det = 1 := by
      rw [Matrix.det_fin_two]
      simp [topLeft, badSystem]
    rw [this]; exact isUnit_one
  · funext i
    fin_cases i <;> simp [badSystem, Matrix.mulVec, dotProduct, Fin.sum_univ_succ]
  · funext i
    fin_cases i
    simp [bottomLeft, badSystem, Matrix.mulVec, dotProduct, Fin.sum_univ_succ, tail]
  · simp only [decondense, hsolve]
    rw [if_neg (by decide)]
    congr 1
    funext i
    fin_cases i <;> simp [join, Fin.append, Fin.addCases, head, topRight, badSystem, Matrix.mulVec, dotProduct]
  · intro h
    have := congrFun h 0
    simp [badSystem, Matrix.mulVec, dotProduct, Fin.sum_univ_succ] at this

example : (exactLDLT ℚ).success (topLeft badSystem) = true := by
  apply exactLDLT_success
  have hL : symL (topLeft badSystem) = (1 : Matrix (Fin 2) (Fin 2) ℚ) := by
    funext i j
    fin_cases i <;> fin_cases j <;> simp [symL, topLeft, badSystem]
  rw [hL]; simp

end Verif.Props.Condensation
