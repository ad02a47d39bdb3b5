import Verif.Lemmas.Heat
import Verif.Lemmas.HhoCube
import Verif.Props.Nitsche
/-!
The heat equation on the unit square with constant unknowns and the penalization of the program.
-/
namespace Verif.Lemmas.Heat
open Finset Verif.Hho Verif.Spec.Hho Verif.Lemmas.Hho Verif.Nitsche Verif.Spec.Nitsche Verif.Lemmas.Nitsche Verif.Heat
  Verif.Spec.Heat LocalMatrix

/-- The four edges on the boundary, of length one. -/
def sqB : List (BFace (ℚ × ℚ) ℚ) := sqFaces.map fun f => ⟨f, true, 1⟩

theorem sqB_faces : sqB.map BFace.toFace = sqFaces := rfl

theorem sqB_size : ∀ f ∈ sqB, (f.basis 0).size = 1 := by
  intro f hf
  simp only [sqB, sqFaces, List.map_cons, List.map_nil, List.mem_cons, List.not_mem_nil, or_false] at hf
  rcases hf with rfl | rfl | rfl | rfl <;> rfl

theorem sqGreen : Green sqPoly none 1 0 := by
  intro i hi
  refine ⟨fun _ => 0, Submodule.zero_mem _, fun k hk j hj => ?_⟩
  have h : ∀ i, i < 2 → ∀ j < (sqCell.basis k).size,
      quad (sqCell.integrate 0) (fun x => dot 2 (rflux 2 none (sqCell.basis 1) x i) ((sqCell.basis k).grad x j)) =
      -quad (sqCell.integrate 0) (fun x => 0 * (sqCell.basis k).fn x j) +
        (sqFaces.map fun f => quad (f.integrate 0) fun x =>
          fluxN 2 none (sqCell.basis 1) f.normal x i * (sqCell.basis k).fn x j).sum := by
    rcases hk with rfl | rfl <;> decide +kernel
  have hi2 : i < 2 := by
    have : i + 1 < 3 := hi
    omega
  exact h i hi2 j hj

/-- The interpolate of `x - 1/2` by constants. -/
def sqVec : Nat → ℚ := fun i => if i = 1 then -1 / 2 else if i = 2 then 1 / 2 else 0

/-- The coefficients of `x - 1/2`. -/
def sqLin : Nat → ℚ := fun i => if i = 0 then -1 / 2 else if i = 1 then 1 else 0

theorem sqInterp : IsInterp sqPoly 0 (uniform 0 sqFaces) (evalFn (sqCell.basis 1) sqLin) sqVec := by
  have hc : ∀ i < 1, quad (sqCell.integrate 0) (fun x => (sqCell.basis 0).fn x i * evalFn (sqCell.basis 0) sqVec x) =
      quad (sqCell.integrate 0) (fun x => (sqCell.basis 0).fn x i * evalFn (sqCell.basis 1) sqLin x) := by decide +kernel
  have hf : ∀ p ∈ [(sqEdge true 0 (-1), 1), (sqEdge true 1 1, 2), (sqEdge false 0 (-1), 3), (sqEdge false 1 1, 4)],
      ∀ i < 1, quad (p.1.integrate 0) (fun x => (p.1.basis 0).fn x i * evalFn (p.1.basis 0) (seg p.2 sqVec) x) =
        quad (p.1.integrate 0) (fun x => (p.1.basis 0).fn x i * evalFn (sqCell.basis 1) sqLin x) := by
    intro p hp
    simp only [List.mem_cons, List.not_mem_nil, or_false] at hp
    rcases hp with rfl | rfl | rfl | rfl <;> decide +kernel
  exact ⟨hc, hf (sqEdge true 0 (-1), 1) (by simp), hf (sqEdge true 1 1, 2) (by simp), hf (sqEdge false 0 (-1), 3) (by simp),
    hf (sqEdge false 1 1, 4) (by simp), trivial⟩

/-- One square, constant unknowns, penalization one. -/
def sqCfg (dt : ℚ) : Cfg (ℚ × ℚ) ℚ :=
  ⟨2, 0, 1, 1, 1, 4, fun _ => ⟨sqCell, sqB, [0, 1, 2, 3]⟩, dt, 1, fun _ => 0, fun _ => 0, fun _ => 0, fun _ _ => 0⟩

theorem sqCfg_wf (dt : ℚ) : WellFormed (sqCfg dt) where
  cell ci _ := rfl
  face ci _ h hh := sqB_size h hh
  len ci _ := rfl
  ids ci _ j hj := by
    simp only [sqCfg, List.mem_cons, List.not_mem_nil, or_false] at hj
    rcases hj with rfl | rfl | rfl | rfl <;> simp [sqCfg]

theorem sqCfg_stiff (dt : ℚ) : stiff (exactSolver ℚ) (sqCfg dt) sqVec sqVec = -1 / 2 := by
  set L := laplacian 2 none false (exactSolver ℚ) 1 0 0 sqCell sqFaces with hL
  set A := addMat L.2 (hho (exactSolver ℚ) true 1 0 0 sqCell L.1 sqFaces) with hA
  have hR : ∀ j < 2, app 5 L.1 sqVec j = sqLin (j + 1) :=
    Props.HhoLaplacian.c82_consistency sqPoly (exactSolver ℚ) (tens := none) trivial (rd := 1) (cd := 0) (fd := 0) (by omega)
      (by omega) (by omega) (by omega) (by omega) sqGreen sqLapNonsing sqInterp
  have hG : ∀ x, ∀ c < 2, evalGradTail (sqCell.basis 1) (app 5 L.1 sqVec) x c = if c = 0 then 1 else 0 := by
    intro x c hc
    change ∑ j ∈ range 2, _ = _
    rw [sum_range_succ, sum_range_succ, range_zero, sum_empty, hR 0 (by omega), hR 1 (by omega)]
    have e : (sqExps 1) = [(0, 0), (1, 0), (0, 1)] := by decide
    interval_cases c <;> simp [sqLin, sqCell, sqBasis, e, sqMon]
  have h1 : form 5 A sqVec sqVec = 1 := by
    have e1 : form 5 A sqVec sqVec = form 5 L.2 sqVec sqVec :=
      Props.HhoStab.c85_local_energy sqPoly (exactSolver ℚ) true (tens := none) trivial (rd := 1) (cd := 0) (fd := 0) (by omega)
        (by omega) (by omega) (by omega) (by omega) (by omega) sqGreen sqLapNonsing sqMass sqFaceMass sqInterp sqVec
    rw [e1]
    refine ((Props.HhoLaplacian.c82_energy (d := 2) (cell := sqCell) (faces := sqFaces) (exactSolver ℚ) (tens := none) trivial
      false (sqCell.basis 1) 1 0 0 5 sqLapNonsing sqVec sqVec).1).trans ?_
    have : ∀ x : ℚ × ℚ, dot 2 (fluxOf 2 none (evalGradTail (sqCell.basis 1) (app 5 L.1 sqVec) x))
        (evalGradTail (sqCell.basis 1) (app 5 L.1 sqVec) x) = 1 := fun x => by
      simp only [dot, fluxOf, sum_range_succ, range_zero, sum_empty]
      rw [hG x 0 (by omega), hG x 1 (by omega)]
      norm_num
    refine (quad_congr (v := fun _ => 1) fun q _ => this q.pt).trans ?_
    change quad (sqCell.integrate 0) (fun _ => 1) = 1
    decide +kernel
  have hf := (Props.Nitsche.c178_form (d := 2) (cell := sqCell) (faces := sqB) 1 0 0 sqB_size L.1 A
    (setSegment (fun _ => 0) 0 1 (rhsOf sqCell 0 1 (sqCell.basis 0) fun _ => 0)) (fun _ => 0) 1 sqVec sqVec).1
  have hs : stiff (exactSolver ℚ) (sqCfg dt) sqVec sqVec = form 5 (Nitsche.apply 2 1 0 0 5 sqCell sqB L.1 A
      (setSegment (fun _ => 0) 0 1 (rhsOf sqCell 0 1 (sqCell.basis 0) fun _ => 0)) (fun _ => 0) 1).1 sqVec sqVec := by
    unfold stiff
    rw [show (sqCfg dt).nc = 1 from rfl, sum_range_one]
    have hv : ∀ j < 5, onCell (sqCfg dt) 0 sqVec j = sqVec j := by
      intro j hj
      interval_cases j <;> simp [onCell, sqCfg, sqVec]
    refine sum_congr rfl fun a ha => ?_
    rw [hv a (mem_range.1 ha)]
    congr 1
    exact app_congr (fun _ _ => rfl) hv
  rw [hs]
  refine hf.trans ?_
  rw [show form ((sqCell.basis 0).size + facesDofs (uniform 0 (sqB.map BFace.toFace))) A sqVec sqVec = 1 from h1]
  have hD : ∀ (m : Nat → ℚ) x, normalD 2 (sqCell.basis 1) (app ((sqCell.basis 0).size +
      facesDofs (uniform 0 (sqB.map BFace.toFace))) L.1 sqVec) m x = m 0 := by
    intro m x
    change dot 2 (evalGradTail (sqCell.basis 1) (app 5 L.1 sqVec) x) m = _
    simp only [dot, sum_range_succ, range_zero, sum_empty]
    rw [hG x 0 (by omega), hG x 1 (by omega)]
    norm_num
  simp only [hD]
  decide +kernel

end Verif.Lemmas.Heat
