import Verif.Model.Condensation
import Mathlib.Algebra.BigOperators.Fin
/-! Lemmas on condensation. -/
namespace Verif.Condensation
open Matrix
variable {K : Type} [CommRing K]

theorem symL_of_symm {n : Nat} (A : Matrix (Fin n) (Fin n) K) (h : ∀ i j, A i j = A j i) : symL A = A := by
  funext i j
  unfold symL
  split
  · rfl
  · exact h j i

/-- With a symmetric invertible block, `solve` is the unique solution. -/
theorem solve_iff (F : LDLT K) {n : Nat} (A : Matrix (Fin n) (Fin n) K) (hs : ∀ i j, A i j = A j i)
    (hu : IsUnit A.det) (hok : F.success A = true) (b x : Fin n → K) : A *ᵥ x = b ↔ x = F.solve A b := by
  have h := F.solves A b hok (by rw [symL_of_symm A hs]; exact hu)
  rw [symL_of_symm A hs] at h
  constructor
  · intro hx
    have := congrArg (fun v => A⁻¹ *ᵥ v) (hx.trans h.symm)
    simpa [Matrix.mulVec_mulVec, Matrix.nonsing_inv_mul A hu] using this
  · rintro rfl; exact h

theorem solve_linear (F : LDLT K) {n m : Nat} (A : Matrix (Fin n) (Fin n) K) (hs : ∀ i j, A i j = A j i)
    (hu : IsUnit A.det) (hok : F.success A = true) (B : Matrix (Fin n) (Fin m) K) (b : Fin n → K) (y : Fin m → K) :
    F.solve A (b - B *ᵥ y) = F.solve A b - F.solveMat A B *ᵥ y := by
  symm
  rw [← solve_iff F A hs hu hok, Matrix.mulVec_sub, (solve_iff F A hs hu hok b _).2 rfl, Matrix.mulVec_mulVec]
  congr 2
  funext i j
  have := congrFun ((solve_iff F A hs hu hok (fun r => B r j) _).2 rfl) i
  simpa [Matrix.mul_apply, Matrix.mulVec, dotProduct, LDLT.solveMat] using this

/-- Block elimination. -/
theorem block_elim (F : LDLT K) {n m : Nat} (TT : Matrix (Fin n) (Fin n) K) (TF : Matrix (Fin n) (Fin m) K)
    (FT : Matrix (Fin m) (Fin n) K) (FF : Matrix (Fin m) (Fin m) K) (hs : ∀ i j, TT i j = TT j i)
    (hu : IsUnit TT.det) (hok : F.success TT = true) (a x : Fin n → K) (b y : Fin m → K) :
    (TT *ᵥ x + TF *ᵥ y = a ∧ FT *ᵥ x + FF *ᵥ y = b) ↔
      ((FF - FT * F.solveMat TT TF) *ᵥ y = b - FT *ᵥ F.solve TT a ∧ x = F.solve TT (a - TF *ᵥ y)) := by
  have h1 : (TT *ᵥ x + TF *ᵥ y = a) ↔ x = F.solve TT (a - TF *ᵥ y) := by
    rw [← solve_iff F TT hs hu hok, eq_sub_iff_add_eq]
  rw [h1]
  constructor
  · rintro ⟨hx, hb⟩
    refine ⟨?_, hx⟩
    rw [hx, solve_linear F TT hs hu hok] at hb
    rw [Matrix.mulVec_sub, Matrix.mulVec_mulVec] at hb
    rw [Matrix.sub_mulVec, ← hb]
    abel
  · rintro ⟨hb, hx⟩
    refine ⟨hx, ?_⟩
    rw [hx, solve_linear F TT hs hu hok, Matrix.mulVec_sub, Matrix.mulVec_mulVec]
    rw [Matrix.sub_mulVec] at hb
    have := eq_sub_iff_add_eq.1 hb
    rw [← this]
    abel

/-- The full system split at `nc`. -/
theorem full_iff {nc nf : Nat} (M : Matrix (Fin (nc + nf)) (Fin (nc + nf)) K) (r u : Fin (nc + nf) → K) :
    M *ᵥ u = r ↔
      (topLeft M *ᵥ (fun i => u (Fin.castAdd nf i)) + topRight M *ᵥ (fun i => u (Fin.natAdd nc i)) =
          (fun i => r (Fin.castAdd nf i)) ∧
       bottomLeft M *ᵥ (fun i => u (Fin.castAdd nf i)) + bottomRight M *ᵥ (fun i => u (Fin.natAdd nc i)) =
          (fun i => r (Fin.natAdd nc i))) := by
  have key : ∀ i, (M *ᵥ u) i = ∑ j, M i (Fin.castAdd nf j) * u (Fin.castAdd nf j) +
      ∑ j, M i (Fin.natAdd nc j) * u (Fin.natAdd nc j) := by
    intro i
    rw [Matrix.mulVec, dotProduct, Fin.sum_univ_add]
  constructor
  · intro h
    constructor
    · funext i
      have := congrFun h (Fin.castAdd nf i)
      rw [key] at this
      exact this
    · funext i
      have := congrFun h (Fin.natAdd nc i)
      rw [key] at this
      exact this
  · rintro ⟨h1, h2⟩
    funext i
    rw [key]
    refine Fin.addCases (fun i => ?_) (fun i => ?_) i
    · exact congrFun h1 i
    · exact congrFun h2 i

theorem join_eq_iff {nc nf : Nat} (t : Fin nc → K) (f : Fin nf → K) (u : Fin (nc + nf) → K) :
    join t f = u ↔ (fun i => u (Fin.castAdd nf i)) = t ∧ (fun i => u (Fin.natAdd nc i)) = f := by
  constructor
  · rintro rfl
    exact ⟨by funext i; simp [join], by funext i; simp [join]⟩
  · rintro ⟨rfl, rfl⟩
    funext i
    refine Fin.addCases (fun i => ?_) (fun i => ?_) i <;> simp [join]

open Classical in
/-- A solver with the assumed contract exists. -/
noncomputable def exactLDLT (K : Type) [CommRing K] : LDLT K where
  success := fun A => decide (IsUnit (symL A).det)
  solve := fun A b => (symL A)⁻¹ *ᵥ b
  solves := by
    intro n A b _ h
    rw [Matrix.mulVec_mulVec, Matrix.mul_nonsing_inv _ h, Matrix.one_mulVec]

theorem exactLDLT_success {n : Nat} (A : Matrix (Fin n) (Fin n) K) (h : IsUnit (symL A).det) :
    (exactLDLT K).success A = true := by simp [exactLDLT, h]

end Verif.Condensation
