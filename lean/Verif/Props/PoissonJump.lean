import Verif.Lemmas.PoissonJump
import Mathlib.Algebra.BigOperators.Fin
import Mathlib.Tactic.NormNum
import Mathlib.Tactic.FinCases
/-! C183: the program with a jump condition solves the problem with the jump. -/
namespace Verif.Props.PoissonJump
open Verif.PoissonApp Verif.PoissonJump Verif.Spec Matrix

variable {K : Type} [Field K] {nT nF cb fbs : Nat}

/-- The result of assembly, solution and `deschur` solves the problem with the jump. -/
theorem c183_solution (P : JProb K nT nF cb fbs) (h10 : (10 : K) ≠ 0)
    (hE : ∀ T, IsUnit (P.elem T).A.toBlocks₁₁.det) (x : Fin nF → Fin fbs → K) (hx : JSolved P x) :
    ∃ uF : Fin nF → Fin fbs → K,
      (∀ T q, jtake P T x q = uF ((P.elem T).face q.1) q.2) ∧ JumpSol P (fun T => jcell P T x) uF := by
  refine ⟨jface P x, fun T q => rfl, ?_, ?_, ?_⟩
  · intro F h1 h2 i
    simp [jface, (outer_iff P F).2 ⟨h1, h2⟩]
  · intro T i
    rw [jseen_eq, ← jlhs_apply]
    have h := congrFun (mulVec_inl (jlhs P T)
      (Sum.elim (jcell P T x) (jtake P T x + jgD P T ∘ Sum.inr))) i
    rw [Sum.elim_comp_inl, Sum.elim_comp_inr, jcell_eq, mulVec_mulVec,
      mul_nonsing_inv _ (jlhs_det P h10 T (hE T)), one_mulVec, sub_add_cancel] at h
    rw [← jcell_eq] at h
    exact h
  · intro F hF i
    refine Eq.trans ?_ (hx F ((outer_false_iff P F).2 hF) i)
    refine Finset.sum_congr rfl fun T _ => Finset.sum_congr rfl fun fi _ => ?_
    by_cases h : (P.elem T).face fi = F
    · rw [if_pos h, if_pos h, jrow_eq, jseen_eq, ← jlhs_apply]
      simp [jgN, h]
    · rw [if_neg h, if_neg h]

/-- Every solution of the problem with the jump is found. -/
theorem c183_complete (P : JProb K nT nF cb fbs) (h10 : (10 : K) ≠ 0)
    (hE : ∀ T, IsUnit (P.elem T).A.toBlocks₁₁.det) (uT : Fin nT → Fin cb → K)
    (uF : Fin nF → Fin fbs → K) (hu : JumpSol P uT uF) :
    JSolved P uF ∧ ∀ T, jcell P T uF = uT T := by
  have hg : jface P uF = uF := by
    funext F i
    by_cases h : outer P F = true
    · simp [jface, h, hu.strong F ((outer_iff P F).1 h).1 ((outer_iff P F).1 h).2 i]
    · simp [jface, h]
  have hs : ∀ T, pjSeen P T (uT T) uF = Sum.elim (uT T) (jtake P T uF + jgD P T ∘ Sum.inr) := by
    intro T
    have := jseen_eq P T (uT T) uF
    rwa [hg] at this
  have hc : ∀ T, jcell P T uF = uT T := by
    intro T
    have h := mulVec_inl (jlhs P T) (Sum.elim (uT T) (jtake P T uF + jgD P T ∘ Sum.inr))
    have h1 : (jlhs P T *ᵥ Sum.elim (uT T) (jtake P T uF + jgD P T ∘ Sum.inr)) ∘ Sum.inl
        = (P.elem T).load := by
      funext i
      rw [← hs]
      exact (jlhs_apply P T _ _).trans (hu.cell T i)
    rw [h1, Sum.elim_comp_inl, Sum.elim_comp_inr] at h
    rw [jcell_eq, h, add_sub_cancel_right, mulVec_mulVec,
      nonsing_inv_mul _ (jlhs_det P h10 T (hE T)), one_mulVec]
  refine ⟨?_, hc⟩
  intro F hF i
  refine Eq.trans ?_ (hu.face F ((outer_false_iff P F).1 hF) i)
  refine Finset.sum_congr rfl fun T _ => Finset.sum_congr rfl fun fi _ => ?_
  by_cases h : (P.elem T).face fi = F
  · rw [if_pos h, if_pos h, jrow_eq, hc, ← hs, ← jlhs_apply]
    simp [jgN, h]
  · rw [if_neg h, if_neg h]

/-- Across a face with tag 8 the trace seen from the domain 2 exceeds the one seen from the other side by
the given jump; across any other face the two agree. -/
theorem c183_jump (P : JProb K nT nF cb fbs) (uT uT' : Fin cb → K) (uF : Fin nF → Fin fbs → K)
    (T T' : Fin nT) (fi : Fin (P.elem T).nfc) (fi' : Fin (P.elem T').nfc)
    (hF : (P.elem T).face fi = (P.elem T').face fi') (i : Fin fbs) :
    (P.dom T = 2 → P.dom T' ≠ 2 → P.tag ((P.elem T).face fi) = 8 →
      pjSeen P T uT uF (.inr (fi, i)) - pjSeen P T' uT' uF (.inr (fi', i)) = P.gD ((P.elem T).face fi) i) ∧
    (P.tag ((P.elem T).face fi) ≠ 8 →
      pjSeen P T uT uF (.inr (fi, i)) = pjSeen P T' uT' uF (.inr (fi', i))) := by
  constructor
  · intro h1 h2 h3
    simp [pjSeen, paSeen, pjJump, h1, h2, h3, ← hF]
  · intro h3
    simp [pjSeen, paSeen, pjJump, h3, ← hF]

/-- Two cells of length 1 at the lowest order, the first in the domain 2, a jump of 1 in the middle. -/
def pair : JProb ℚ 2 3 1 1 where
  elem := fun k =>
    { nfc := 2
      face := fun a => ⟨k + a, by omega⟩
      A := fun r c => match r, c with
        | .inl _, .inl _ => 2
        | .inl _, .inr _ => -1
        | .inr _, .inl _ => -1
        | .inr (a, _), .inr (b, _) => if a = b then 3 / 2 else -1 / 2
      load := 0
      mass := fun _ => 1
      nDn := fun _ => 1
      neu := fun _ => 0 }
  dom := fun T => if T = 0 then 2 else 1
  tag := fun F => if F = 1 then 8 else 1
  isB := fun _ => true
  isInt := fun F => F = 1
  gD := fun _ _ => 1
  gN := fun _ _ => 0

theorem pair_det (T : Fin 2) : IsUnit (pair.elem T).A.toBlocks₁₁.det := by
  have : (pair.elem T).A.toBlocks₁₁.det = 2 := by rw [det_fin_one]; rfl
  rw [this]; norm_num

theorem pair_sol : JumpSol pair (fun T _ => if T = 0 then 1 / 22 else -5 / 11)
    (fun F _ => if F = 1 then -10 / 11 else 0) := by
  refine ⟨?_, ?_, ?_⟩
  · decide +kernel
  · decide +kernel
  · decide +kernel

/-- The program finds 1/22 and -5/11. -/
example : JSolved pair (fun F _ => if F = 1 then -10 / 11 else 0) ∧
    ∀ T, jcell pair T (fun F _ => if F = 1 then -10 / 11 else 0)
      = fun _ => if T = 0 then 1 / 22 else -5 / 11 :=
  c183_complete pair (by norm_num) pair_det _ _ pair_sol

end Verif.Props.PoissonJump
