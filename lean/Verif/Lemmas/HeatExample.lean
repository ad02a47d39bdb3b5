import Verif.Lemmas.Heat
import Verif.Props.Nitsche
/-!
The heat equation on the segment: the hypotheses of the theorems hold.
-/
namespace Verif.Lemmas.Heat
open Finset Verif.Hho Verif.Spec.Hho Verif.Lemmas.Hho Verif.Nitsche Verif.Spec.Nitsche Verif.Lemmas.Nitsche Verif.Heat
  Verif.Spec.Heat LocalMatrix

/-- One cell, linear unknowns, penalization twelve. -/
def segCfg (f g i : ℚ → ℚ) (sol : ℚ → ℚ → ℚ) : Cfg ℚ ℚ :=
  ⟨1, 1, 2, 1, 1, 2, fun _ => ⟨segCell, segB, [0, 1]⟩, 1 / 10, 12, f, g, i, sol⟩

theorem segCfg_wf (f g i : ℚ → ℚ) (sol : ℚ → ℚ → ℚ) : WellFormed (segCfg f g i sol) where
  cell ci _ := rfl
  face ci _ h hh := segB_size h hh
  len ci _ := rfl
  ids ci _ j hj := by
    simp only [segCfg, List.mem_cons, List.not_mem_nil, or_false] at hj
    rcases hj with rfl | rfl <;> simp [segCfg]

theorem segCfg_stiff (f g i : ℚ → ℚ) (sol : ℚ → ℚ → ℚ) (v : Nat → ℚ) :
    (1 / 2) * form 4 (laplacian 1 none false (exactSolver ℚ) 2 1 1 segCell segFaces).2 v v ≤
      stiff (exactSolver ℚ) (segCfg f g i sol) v v ∧
    0 ≤ form 4 (laplacian 1 none false (exactSolver ℚ) 2 1 1 segCell segFaces).2 v v := by
  set L := laplacian 1 none false (exactSolver ℚ) 2 1 1 segCell segFaces with hL
  have hmF : ∀ g ∈ segFaces, Nonsing (g.basis 1).size (mass g.toElem 1 (g.basis 1)) := fun g hg => by
    have := segFaceMass g hg (2 * 1)
    simp only [segFaces, List.mem_cons, List.not_mem_nil, or_false] at hg
    rcases hg with rfl | rfl <;> exact this
  have e2 := (Props.HhoLaplacian.c82_energy (d := 1) (cell := segCell) (faces := segFaces) (exactSolver ℚ) (tens := none) trivial
    false (segCell.basis 2) 2 1 1 4 segNonsing v v).1
  set r0 := app 4 L.1 v 0 with hr0
  set r1 := app 4 L.1 v 1 with hr1
  have hG : ∀ x c, evalGradTail (segCell.basis 2) (app 4 L.1 v) x c = r0 + 2 * r1 * x := by
    intro x c
    change ∑ j ∈ range 2, _ = _
    rw [sum_range_succ, sum_range_succ, range_zero, sum_empty, ← hr0, ← hr1]
    simp [segCell, lineBasis]
    ring
  have hE : form 4 L.2 v v = r0 * r0 + 2 * r0 * r1 + 4 / 3 * (r1 * r1) := by
    refine e2.trans ?_
    have : ∀ x : ℚ, dot 1 (fluxOf 1 none (evalGradTail (segCell.basis 2) (app 4 L.1 v) x))
        (evalGradTail (segCell.basis 2) (app 4 L.1 v) x) = (r0 + 2 * r1 * x) * (r0 + 2 * r1 * x) := fun x => by
      simp [dot, fluxOf, hG]
    refine (quad_congr (v := fun x => (r0 + 2 * r1 * x) * (r0 + 2 * r1 * x)) fun q _ => this q.pt).trans ?_
    simp [quad, segCell]
    ring
  have hD : ∀ (m : Nat → ℚ) x, normalD 1 (segCell.basis 2) (app ((segCell.basis 1).size +
      facesDofs (uniform 1 (segB.map BFace.toFace))) L.1 v) m x = (r0 + 2 * r1 * x) * m 0 := by
    intro m x
    change dot 1 (evalGradTail (segCell.basis 2) (app 4 L.1 v) x) m = _
    simp [dot, hG]
  have hE0 : 0 ≤ r0 * r0 + 2 * r0 * r1 + 4 / 3 * (r1 * r1) := by
    nlinarith [mul_self_nonneg (r0 + r1), mul_self_nonneg r1]
  have hst : 0 ≤ form 4 (hho (exactSolver ℚ) true 2 1 1 segCell L.1 segFaces) v v :=
    (Props.HhoStab.c84_sym_nonneg_hho segPoly (exactSolver ℚ) true (rd := 2) (cd := 1) (fd := 1) (by omega) (by omega) (by omega)
      (by omega) (by omega) segMass hmF L.1 (by norm_num [segCell]) (fun f hf w => by
        have : segPoly.IF f (fun x => w x * w x) = quad (f.integrate 0) fun x => w x * w x := rfl
        rw [this]
        simp only [segFaces, List.mem_cons, List.not_mem_nil, or_false] at hf
        rcases hf with rfl | rfl <;> simp [endPoint, quad] <;> exact mul_self_nonneg _) v v).2
  have hA : form 4 (addMat L.2 (hho (exactSolver ℚ) true 2 1 1 segCell L.1 segFaces)) v v =
      form 4 L.2 v v + form 4 (hho (exactSolver ℚ) true 2 1 1 segCell L.1 segFaces) v v := form_addMat ..
  have h := (Props.Nitsche.c178_positive_partial (d := 1) (cell := segCell) (faces := segB) 2 1 1 segB_size L.1
    (addMat L.2 (hho (exactSolver ℚ) true 2 1 1 segCell L.1 segFaces))
    (setSegment (fun _ => 0) 0 2 (rhsOf segCell 1 1 (segCell.basis 1) f)) g (pen := 12) (c := 6)
    (E := r0 * r0 + 2 * r0 * r1 + 4 / 3 * (r1 * r1)) (by norm_num) (by norm_num) (fun f hf => by
      simp only [segB, List.mem_cons, List.not_mem_nil, or_false] at hf
      rcases hf with rfl | rfl <;> norm_num)
    (fun f hf q hq => by
      simp only [segB, List.mem_cons, List.not_mem_nil, or_false] at hf
      rcases hf with rfl | rfl <;> (simp [endPoint] at hq; rw [hq]; norm_num)) v
    (show _ ≤ form 4 _ v v by rw [hA, hE]; linarith) hE0 (by
      simp only [hD]
      simp only [bndSum, segB]
      simp [quad, endPoint]
      nlinarith [mul_self_nonneg (r0 + r1), mul_self_nonneg r1])).1
  refine ⟨?_, by rw [hE]; exact hE0⟩
  have hs : stiff (exactSolver ℚ) (segCfg f g i sol) v v = form 4 (Nitsche.apply 1 2 1 1 4 segCell segB L.1
      (addMat L.2 (hho (exactSolver ℚ) true 2 1 1 segCell L.1 segFaces))
      (setSegment (fun _ => 0) 0 2 (rhsOf segCell 1 1 (segCell.basis 1) f)) g 12).1 v v := by
    unfold stiff
    rw [show (segCfg f g i sol).nc = 1 from rfl, sum_range_one]
    have hv : ∀ j < 4, onCell (segCfg f g i sol) 0 v j = v j := by
      intro j hj
      interval_cases j <;> simp [onCell, segCfg]
    refine sum_congr rfl fun a ha => ?_
    rw [hv a (mem_range.1 ha)]
    congr 1
    exact app_congr (fun _ _ => rfl) hv
  rw [hs, hE]
  refine le_trans (le_of_eq ?_) h
  norm_num

/-- The matrix of the segment is non-singular: the L² product controls the cell unknowns, the reconstruction then the
unknowns of the end points. -/
theorem segCfg_nonsing (f g i : ℚ → ℚ) (sol : ℚ → ℚ → ℚ) :
    Nonsing (size (segCfg f g i sol)) (lhs (exactSolver ℚ) (segCfg f g i sol)) := by
  intro v hv
  have hform : form (size (segCfg f g i sol)) (lhs (exactSolver ℚ) (segCfg f g i sol)) v v = 0 :=
    sum_eq_zero fun a ha => by rw [show app _ _ v a = 0 from hv a (mem_range.1 ha), mul_zero]
  rw [form_lhs (segCfg_wf f g i sol)] at hform
  obtain ⟨h1, h2⟩ := segCfg_stiff f g i sol v
  have hl2 : l2 (segCfg f g i sol) v v = v 0 * v 0 + v 0 * v 1 + v 1 * v 1 / 3 := by
    unfold l2
    rw [show (segCfg f g i sol).nc = 1 from rfl, sum_range_one]
    simp [segCfg, segCell, quad, evalFn, lineBasis, sum_range_succ, seg]
    ring
  have hdt : (segCfg f g i sol).dt = 1 / 10 := rfl
  rw [hl2, hdt] at hform
  have p1 : 0 ≤ v 0 * v 0 + v 0 * v 1 + v 1 * v 1 / 3 := by
    nlinarith [mul_self_nonneg (v 0 + v 1 / 2), mul_self_nonneg (v 1)]
  have z1 : v 0 * v 0 + v 0 * v 1 + v 1 * v 1 / 3 = 0 := by linarith
  have z2 : form 4 (laplacian 1 none false (exactSolver ℚ) 2 1 1 segCell segFaces).2 v v = 0 := by linarith
  have v1 : v 1 = 0 := by
    have : v 1 * v 1 = 0 := by nlinarith [mul_self_nonneg (v 0 + v 1 / 2), mul_self_nonneg (v 1)]
    exact mul_self_eq_zero.1 this
  have v0 : v 0 = 0 := by rw [v1] at z1; simpa using z1
  set L := laplacian 1 none false (exactSolver ℚ) 2 1 1 segCell segFaces with hL
  set r0 := app 4 L.1 v 0 with hr0
  set r1 := app 4 L.1 v 1 with hr1
  have hG : ∀ x c, evalGradTail (segCell.basis 2) (app 4 L.1 v) x c = r0 + 2 * r1 * x := by
    intro x c
    change ∑ j ∈ range 2, _ = _
    rw [sum_range_succ, sum_range_succ, range_zero, sum_empty, ← hr0, ← hr1]
    simp [segCell, lineBasis]
    ring
  have hE : form 4 L.2 v v = r0 * r0 + 2 * r0 * r1 + 4 / 3 * (r1 * r1) := by
    refine ((Props.HhoLaplacian.c82_energy (d := 1) (cell := segCell) (faces := segFaces) (exactSolver ℚ) (tens := none) trivial
      false (segCell.basis 2) 2 1 1 4 segNonsing v v).1).trans ?_
    have : ∀ x : ℚ, dot 1 (fluxOf 1 none (evalGradTail (segCell.basis 2) (app 4 L.1 v) x))
        (evalGradTail (segCell.basis 2) (app 4 L.1 v) x) = (r0 + 2 * r1 * x) * (r0 + 2 * r1 * x) := fun x => by
      simp [dot, fluxOf, hG]
    refine (quad_congr (v := fun x => (r0 + 2 * r1 * x) * (r0 + 2 * r1 * x)) fun q _ => this q.pt).trans ?_
    simp [quad, segCell]
    ring
  rw [z2] at hE
  have hr1z : r1 = 0 := by
    have : r1 * r1 = 0 := by nlinarith [mul_self_nonneg (r0 + r1), mul_self_nonneg r1]
    exact mul_self_eq_zero.1 this
  have hr0z : r0 = 0 := by rw [hr1z] at hE; simpa using hE.symm
  have hrel : ∀ a, a + 1 < 3 → _ := fun a ha => Props.HhoLaplacian.c82_relation segPoly (exactSolver ℚ) (tens := none) trivial
    (rd := 2) (cd := 1) (fd := 1) (by omega) (by omega) (by omega) segNonsing v (i := a) ha
  have hG' : ∀ x, evalGradTail (segCell.basis 2) (app ((segCell.basis 1).size + facesDofs (uniform 1 segFaces)) L.1 v) x =
      fun _ => 0 := fun x => by
    funext c
    have := hG x c
    rw [hr0z, hr1z] at this
    refine Eq.trans this ?_
    ring
  have q0 := hrel 0 (by omega)
  have q1 := hrel 1 (by omega)
  rw [← hL] at q0 q1
  simp only [hG'] at q0 q1
  simp [segPoly, quadLin, quad, segCell, segFaces, endPoint, lineBasis, rflux, flux, fluxN, tailRows, dot, uniform, faceSum,
    evalFn, evalGrad, sum_range_succ, seg, v0, v1] at q0 q1
  intro j hj
  have hj4 : j < 4 := hj
  have v3 : v 3 = 0 := by simpa using q1
  have v2 : v 2 = 0 := by rw [v3] at q0; linarith
  interval_cases j <;> assumption

/-- The interpolate of `x²` on the segment. -/
def segVec : Nat → ℚ := fun i => if i = 0 then -1 / 6 else if i = 1 then 1 else if i = 2 then 0 else 1

theorem segMatching (f g i : ℚ → ℚ) (sol : ℚ → ℚ → ℚ) : Matching (segCfg f g i sol) := by
  refine ⟨fun i => if i = 0 then (endPoint 0 (-1) 1).toElem else (endPoint 1 1 1).toElem, fun _ => true, fun ci _ j hj => ?_,
    fun i _ h => by simp at h⟩
  have hj : j < 2 := hj
  interval_cases j <;> exact ⟨rfl, rfl⟩

/-- `x²` is steady for the source `-2`. -/
theorem segSteady (i : ℚ → ℚ) (sol : ℚ → ℚ → ℚ) :
    SteadyCell (segCfg (fun _ => -2) (fun x => x ^ 2) i sol) 5 (fun x _ => 2 * x) segVec 0 := by
  have hmF : ∀ g ∈ segFaces, Nonsing (g.basis 1).size (mass g.toElem 1 (g.basis 1)) := fun g hg => by
    have := segFaceMass g hg (2 * 1)
    simp only [segFaces, List.mem_cons, List.not_mem_nil, or_false] at hg
    rcases hg with rfl | rfl <;> exact this
  refine ⟨segPoly, by simp [segCfg], segGreen, segNonsing, segMass, hmF, ⟨fun j => if j = 2 then 1 else 0, fun x => ?_, fun x e _ => ?_⟩,
    ⟨Polynomial.C (-2), by simp, fun x => by simp [segCfg]⟩, fun w => ?_, ?_, ?_⟩
  · simp [evalFn, segCfg, segCell, lineBasis, sum_range_succ]
  · simp [evalGrad, segCfg, segCell, lineBasis, sum_range_succ]
  · simp [segPoly, quadLin, quad, segCfg, segB, segCell, endPoint, lineBasis, dot, evalFn, evalGrad, sum_range_succ]
    ring
  · intro j hj
    have hj : j < 2 := hj
    interval_cases j <;>
      simp [segPoly, quadLin, quad, segCfg, segCell, lineBasis, evalFn, sum_range_succ, onCell, segVec] <;> norm_num
  · simp [faceAll, uniform, segPoly, quadLin, quad, segCfg, segB, segCell, endPoint, lineBasis, evalFn, sum_range_succ, onCell,
      segVec, seg]

theorem segProject {j : Nat} (hj : j < 2) : projectElem (exactSolver ℚ) segCell 1 (fun x => x ^ 2) 0 j = segVec j := by
  refine solve_unique segMass (x := projectElem (exactSolver ℚ) segCell 1 (fun x => x ^ 2) 0) (y := segVec) (fun i hi => ?_) j hj
  have h1 := (exactSolver ℚ).solves _ _ (rhsOf segCell 1 0 (segCell.basis 1) fun x => x ^ 2)
    (mass_sym segCell 1 _ (segCell.basis 1)) segMass i hi
  refine h1.trans ?_
  rw [rhsOf_eq]
  simp only [app, sum_range_succ, range_zero, sum_empty, mass_eq]
  interval_cases i <;> simp [quad, segCell, lineBasis, segVec] <;> norm_num

end Verif.Lemmas.Heat
