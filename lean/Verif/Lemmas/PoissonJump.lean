import Verif.Spec.PoissonJump
import Mathlib.Tactic.Ring
import Mathlib.Tactic.Abel
import Mathlib.Tactic.FieldSimp
/-! Lemmas for the program with a jump condition. -/
namespace Verif.PoissonJump
open Matrix Verif.PoissonApp Verif.Spec

variable {K : Type} [Field K] {nT nF cb fbs : Nat}

/-- The face values of the result. -/
def jface (P : JProb K nT nF cb fbs) (x : Fin nF → Fin fbs → K) (F : Fin nF) (i : Fin fbs) : K :=
  if outer P F then 0 else x F i

theorem outer_iff (P : JProb K nT nF cb fbs) (F : Fin nF) :
    outer P F = true ↔ P.isB F = true ∧ P.isInt F = false := by simp [outer]

theorem outer_false_iff (P : JProb K nT nF cb fbs) (F : Fin nF) :
    outer P F = false ↔ (P.isB F = true → P.isInt F = true) := by
  unfold outer; cases P.isB F <;> simp

theorem jtake_eq (P : JProb K nT nF cb fbs) (T : Fin nT) (x : Fin nF → Fin fbs → K) :
    jtake P T x = fun q => jface P x ((P.elem T).face q.1) q.2 := rfl

variable {m n : Type} [Fintype m] [Fintype n] [DecidableEq m] [DecidableEq n]

theorem mulVec_inl (L : Matrix (m ⊕ n) (m ⊕ n) K) (v : m ⊕ n → K) :
    (L *ᵥ v) ∘ Sum.inl = L.toBlocks₁₁ *ᵥ (v ∘ Sum.inl) + L.toBlocks₁₂ *ᵥ (v ∘ Sum.inr) := by
  funext i
  simp [mulVec, dotProduct, Fintype.sum_sum_type, toBlocks₁₁, toBlocks₁₂]

theorem mulVec_inr (L : Matrix (m ⊕ n) (m ⊕ n) K) (v : m ⊕ n → K) :
    (L *ᵥ v) ∘ Sum.inr = L.toBlocks₂₁ *ᵥ (v ∘ Sum.inl) + L.toBlocks₂₂ *ᵥ (v ∘ Sum.inr) := by
  funext i
  simp [mulVec, dotProduct, Fintype.sum_sum_type, toBlocks₂₁, toBlocks₂₂]

theorem jseen_eq (P : JProb K nT nF cb fbs) (T : Fin nT) (u : Fin cb → K) (x : Fin nF → Fin fbs → K) :
    pjSeen P T u (jface P x) = Sum.elim u (jtake P T x + jgD P T ∘ Sum.inr) := by
  funext k
  rcases k with i | ⟨fi, i⟩
  · rfl
  · by_cases h1 : P.dom T = 2 <;> by_cases h2 : P.tag ((P.elem T).face fi) = 8 <;>
      simp [pjSeen, paSeen, pjJump, jtake_eq, jgD, h1, h2]

theorem jgD_inl (P : JProb K nT nF cb fbs) (T : Fin nT) : jgD P T ∘ Sum.inl = 0 := by
  funext i; simp [jgD]

theorem jrhs_inl (P : JProb K nT nF cb fbs) (T : Fin nT) :
    jrhs P T ∘ Sum.inl = (P.elem T).load - (jlhs P T).toBlocks₁₂ *ᵥ (jgD P T ∘ Sum.inr) := by
  have h := mulVec_inl (jlhs P T) (jgD P T)
  rw [jgD_inl, mulVec_zero, zero_add] at h
  rw [← h]
  funext i
  simp [jrhs, loadVec, jgN, sub_eq_add_neg]

theorem jrhs_inr (P : JProb K nT nF cb fbs) (T : Fin nT) :
    jrhs P T ∘ Sum.inr = jgN P T ∘ Sum.inr - (jlhs P T).toBlocks₂₂ *ᵥ (jgD P T ∘ Sum.inr) := by
  have h := mulVec_inr (jlhs P T) (jgD P T)
  rw [jgD_inl, mulVec_zero, zero_add] at h
  rw [← h]
  funext i
  simp only [jrhs, loadVec, Function.comp, Pi.add_apply, Pi.neg_apply, Pi.sub_apply, Sum.elim_inr]
  ring

theorem jcell_eq (P : JProb K nT nF cb fbs) (T : Fin nT) (x : Fin nF → Fin fbs → K) :
    jcell P T x = (jlhs P T).toBlocks₁₁⁻¹ *ᵥ ((P.elem T).load -
      (jlhs P T).toBlocks₁₂ *ᵥ (jtake P T x + jgD P T ∘ Sum.inr)) := by
  unfold jcell
  rw [jrhs_inl, mulVec_add, sub_sub, add_comm]

theorem jrow_eq (P : JProb K nT nF cb fbs) (T : Fin nT) (x : Fin nF → Fin fbs → K) :
    jrow P T x = (jlhs P T *ᵥ Sum.elim (jcell P T x) (jtake P T x + jgD P T ∘ Sum.inr)) ∘ Sum.inr
      - jgN P T ∘ Sum.inr := by
  have h1 : jrow P T x = jlhsC P T *ᵥ jtake P T x - jrhsC P T := by
    funext p
    simp only [jrow, Pi.sub_apply, mulVec, dotProduct, jtake]
    congr 1
    refine Finset.sum_congr rfl fun q _ => ?_
    by_cases h : outer P ((P.elem T).face q.1) = true <;> simp [h]
  rw [h1, mulVec_inr, Sum.elim_comp_inl, Sum.elim_comp_inr]
  unfold jlhsC jrhsC jcell
  rw [jrhs_inr, sub_mulVec, mulVec_add, mulVec_sub, mulVec_sub, ← mulVec_mulVec, ← mulVec_mulVec]
  abel

theorem jlhs_apply (P : JProb K nT nF cb fbs) (T : Fin nT) (v : Idx (P.elem T) → K)
    (k : Idx (P.elem T)) : (jlhs P T *ᵥ v) k = pjCoeff P T * ((P.elem T).A *ᵥ v) k := by
  show ((coeff P T • (P.elem T).A) *ᵥ v) k = coeff P T * ((P.elem T).A *ᵥ v) k
  rw [smul_mulVec, Pi.smul_apply, smul_eq_mul]

theorem jlhs_det (P : JProb K nT nF cb fbs) (h10 : (10 : K) ≠ 0) (T : Fin nT)
    (hE : IsUnit (P.elem T).A.toBlocks₁₁.det) : IsUnit (jlhs P T).toBlocks₁₁.det := by
  have : (jlhs P T).toBlocks₁₁ = coeff P T • (P.elem T).A.toBlocks₁₁ := rfl
  rw [this, det_smul]
  refine IsUnit.mul (IsUnit.pow _ ?_) hE
  unfold coeff
  split_ifs
  · exact isUnit_iff_ne_zero.2 h10
  · exact isUnit_one

end Verif.PoissonJump
