import Verif.Lemmas.HhoSolverErrors
import Verif.Lemmas.HhoSolverExample
/-!
Properties C169–C171: the HHO diffusion solver.
-/
namespace Verif.Props.HhoSolver
open Finset Verif.Hho Verif.HhoSolver Verif.Spec.Hho Verif.Spec.HhoSolver Verif.Lemmas.Hho Verif.Lemmas.HhoSolver
open Verif.Condensation Verif.Assembly LocalMatrix

variable {P K : Type} [Field K] [LinearOrder K] [IsStrictOrderedRing K] {cfg : Config K} {N : Nat} {m : DMesh P K}

/-! ### C169: solvability -/

/-- The local matrix is positive semidefinite. -/
theorem c169_nonneg (S : Solver K) (ht : TensSym cfg.d (some cfg.tens)) (hT : TensNonneg cfg) (hD : Degrees cfg N)
    (hM : SolvableMesh cfg m N) {c : DCell P K} (hc : c ∈ m.cells) (v : Nat → K) :
    0 ≤ form (numCell cfg c + numFace cfg c) (operator S cfg m c).2 v v := by
  obtain ⟨C, hR⟩ := hM.cell c hc
  exact cell_nonneg S ht hT hD hR (hM.positive c hc) v

example (up : Bool) (v : Nat → ℚ) : 0 ≤ form (numCell (lineCfg up) (lineCell 1) + numFace (lineCfg up) (lineCell 1))
    (operator (exactSolver ℚ) (lineCfg up) lineMesh (lineCell 1)).2 v v :=
  c169_nonneg _ (lineTens up) (lineTensNonneg up) (lineDegrees up) (lineSolvable up) (by simp [lineMesh]) v

/-- The cell blocks are invertible and are factorized; the global matrix is non-singular. -/
theorem c169_solvable (S : Solver K) (F : LDLT K) (hF : AcceptsSPD F) (ht : TensSym cfg.d (some cfg.tens))
    (hT : TensNonneg cfg) (hD : Degrees cfg N) (hM : SolvableMesh cfg m N) (f u : P → K) :
    (∀ c ∈ m.cells, CellSolvable S F cfg m c) ∧
      ∃ s s', construct m.bnd cfg.fbs = .ok s ∧ assembleLoop S F cfg m f u m.cells s = .ok s' ∧
        Nonsing s'.systemSize (toMat s'.triplets) :=
  ⟨fun _ hc => cellSolvable_of S F hF ht hT hD hM hc, global_nonsing S F hF ht hT hD hM f u⟩

example (up : Bool) : (∀ c ∈ lineMesh.cells, CellSolvable (exactSolver ℚ) (exactLDLT ℚ) (lineCfg up) lineMesh c) ∧
    ∃ s s', construct lineMesh.bnd (lineCfg up).fbs = .ok s ∧
      assembleLoop (exactSolver ℚ) (exactLDLT ℚ) (lineCfg up) lineMesh (fun _ => 0) (fun x => x) lineMesh.cells s = .ok s' ∧
      Nonsing s'.systemSize (toMat s'.triplets) :=
  c169_solvable _ _ exactLDLT_spd (lineTens up) (lineTensNonneg up) (lineDegrees up) (lineSolvable up) _ _

/-! ### C170: the discrete problem -/

omit [LinearOrder K] [IsStrictOrderedRing K] in
private theorem det_steps {S : Solver K} {F : LDLT K} {f u : P → K}
    (h : ∃ s s', construct m.bnd cfg.fbs = .ok s ∧ assembleLoop S F cfg m f u m.cells s = .ok s' ∧
      Nonsing s'.systemSize (toMat s'.triplets)) :
    ∀ s s', construct m.bnd cfg.fbs = .ok s → assembleLoop S F cfg m f u m.cells s = .ok s' →
      Nonsing s'.systemSize (toMat s'.triplets) := by
  obtain ⟨t, t', h1, h2, h3⟩ := h
  intro s s' h4 h5
  cases h1.symm.trans h4
  cases h2.symm.trans h5
  exact h3

/-- The solver ends without error; the local vectors it returns are the only solution of the discrete problem. -/
theorem c170_discrete (S : Solver K) (F : LDLT K) (lu : LU K) (hF : AcceptsSPD F) (ht : TensSym cfg.d (some cfg.tens))
    (hT : TensNonneg cfg) (hD : Degrees cfg N) (hM : SolvableMesh cfg m N) (f u : P → K) (gu : P → Nat → K) :
    ∃ r v W, run S F lu cfg m f u gu = .ok r ∧
      DiscreteSolution cfg m (fun c => (operator S cfg m c).2) (fun c i => (loadVec cfg c f).getD i 0)
        (dirichletData S cfg m u) v W ∧
      (r.sols = m.cells.map fun c => (List.range (numCell cfg c + numFace cfg c)).map (v c)) ∧
      ∀ v' W', DiscreteSolution cfg m (fun c => (operator S cfg m c).2) (fun c i => (loadVec cfg c f).getD i 0)
        (dirichletData S cfg m u) v' W' →
        r.sols = m.cells.map fun c => (List.range (numCell cfg c + numFace cfg c)).map (v' c) := by
  obtain ⟨hS, hg⟩ := c169_solvable S F hF ht hT hD hM f u
  obtain ⟨r, v, W, h1, h2, h3⟩ := run_discrete S F lu ht hD f u gu hM.cell hS hM.range (det_steps hg)
  refine ⟨r, v, W, h1, h2, h3, fun v' W' h' => h3.trans (List.map_congr_left fun c hc => ?_)⟩
  exact List.map_congr_left fun j hj => discrete_unique S ht hT hD hM h2 h' c hc j (List.mem_range.1 hj)

/-- For the discrete problem itself: at most one solution for every load and all Dirichlet values. -/
theorem c170_unique (S : Solver K) (ht : TensSym cfg.d (some cfg.tens)) (hT : TensNonneg cfg) (hD : Degrees cfg N)
    (hM : SolvableMesh cfg m N) {b : DCell P K → Nat → K} {g : Nat → Nat → K} {v v' : DCell P K → Nat → K}
    {W W' : Nat → Nat → K} (h : DiscreteSolution cfg m (fun c => (operator S cfg m c).2) b g v W)
    (h' : DiscreteSolution cfg m (fun c => (operator S cfg m c).2) b g v' W') :
    ∀ c ∈ m.cells, ∀ j < numCell cfg c + numFace cfg c, v c j = v' c j :=
  discrete_unique S ht hT hD hM h h'

example (up : Bool) (f u : ℚ → ℚ) : ∃ r, run (exactSolver ℚ) (exactLDLT ℚ) (exactLU ℚ) (lineCfg up) lineMesh f u
    (fun _ _ => 1) = .ok r := by
  obtain ⟨r, v, W, h, _⟩ := c170_discrete (exactSolver ℚ) (exactLDLT ℚ) (exactLU ℚ) exactLDLT_spd (lineTens up)
    (lineTensNonneg up) (lineDegrees up) (lineSolvable up) f u fun _ _ => 1
  exact ⟨r, h⟩

/-! ### C171: polynomial solutions -/

/-- If the solution is a polynomial of the reconstruction degree the solver returns its interpolate, and the errors it
reports are zero. -/
theorem c171_polynomial (S : Solver K) (F : LDLT K) (lu : LU K) (hF : AcceptsSPD F) (ht : TensSym cfg.d (some cfg.tens))
    (hT : TensNonneg cfg) (hD : Degrees cfg N) (hM : SolvableMesh cfg m N) {f u : P → K} {gu : P → Nat → K}
    (hu : ∀ c ∈ m.cells, PatchCell cfg m N f u gu c) (hn : NormalsCancel cfg.d m) :
    ∃ r, run S F lu cfg m f u gu = .ok r ∧
      r.sols = m.cells.map (fun c => (List.range (numCell cfg c + numFace cfg c)).map
        (project S c.elem (m.faces c) cfg.cd cfg.fd cfg.fbs 2 u)) ∧
      r.errs.Merr = 0 ∧ r.errs.H1err = 0 ∧ r.errs.Aerr = 0 := by
  obtain ⟨hS, hg⟩ := c169_solvable S F hF ht hT hD hM f u
  exact run_exact S F lu ht hD ⟨hu, hS, hM.range, hn⟩ (det_steps hg)

/-- The same without positivity, if the blocks and the global matrix are invertible. -/
theorem c171_regular {K : Type} [Field K] {cfg : Config K} {m : DMesh P K} (S : Solver K) (F : LDLT K) (lu : LU K)
    (ht : TensSym cfg.d (some cfg.tens)) (hD : Degrees cfg N)
    {f u : P → K} {gu : P → Nat → K} (hM : PatchMesh S F cfg m N f u gu)
    (hG : ∀ s s', construct m.bnd cfg.fbs = .ok s → assembleLoop S F cfg m f u m.cells s = .ok s' →
      Nonsing s'.systemSize (toMat s'.triplets)) :
    ∃ r, run S F lu cfg m f u gu = .ok r ∧
      r.sols = m.cells.map (fun c => (List.range (numCell cfg c + numFace cfg c)).map
        (project S c.elem (m.faces c) cfg.cd cfg.fd cfg.fbs 2 u)) ∧
      r.errs.Merr = 0 ∧ r.errs.H1err = 0 ∧ r.errs.Aerr = 0 :=
  run_exact S F lu ht hD hM hG

example (up : Bool) : ∃ r, run (exactSolver ℚ) (exactLDLT ℚ) (exactLU ℚ) (lineCfg up) lineMesh (fun _ => 0)
    (fun x => x) (fun _ _ => 1) = .ok r ∧ r.errs.H1err = 0 := by
  obtain ⟨r, h, _, _, h1, _⟩ := c171_polynomial (exactSolver ℚ) (exactLDLT ℚ) (exactLU ℚ) exactLDLT_spd (lineTens up)
    (lineTensNonneg up) (lineDegrees up) (lineSolvable up) (linePatch up).1 (linePatch up).2
  exact ⟨r, h, h1⟩

example (up : Bool) : ∃ r, run (exactSolver ℚ) (exactLDLT ℚ) (exactLU ℚ) (lineCfg up) lineMesh (fun _ => 0)
    (fun x => x) (fun _ _ => 1) = .ok r ∧ r.errs.H1err = 0 := by
  have h := c169_solvable (exactSolver ℚ) (exactLDLT ℚ) exactLDLT_spd (lineTens up) (lineTensNonneg up)
    (lineDegrees up) (lineSolvable up) (fun _ => 0) fun x => x
  obtain ⟨r, h, _, _, h1, _⟩ := c171_regular (exactSolver ℚ) (exactLDLT ℚ) (exactLU ℚ) (lineTens up)
    (lineDegrees up) ⟨(linePatch up).1, h.1, (lineSolvable up).range, (linePatch up).2⟩ (det_steps h.2)
  exact ⟨r, h, h1⟩

/-- What the accumulators are, whatever the solution: sums over the cells of squared norms of the difference between
interpolate and computed solution and of the solution. -/
theorem c171_errors {K : Type} [Field K] {cfg : Config K} {m : DMesh P K} {S : Solver K} {F : LDLT K} {lu : LU K}
    {f u : P → K} {gu : P → Nat → K} {r : Result K} (h : run S F lu cfg m f u gu = .ok r) :
    let I := fun c : DCell P K => project S c.elem (m.faces c) cfg.cd cfg.fd cfg.fbs 2 u
    let n := fun c : DCell P K => numCell cfg c + numFace cfg c
    r.sols.length = m.cells.length ∧
      r.errs.Merr = sumCells (fun c v => cellSq cfg c.elem fun i => I c i - v i) m.cells r.sols ∧
      r.errs.L2norm = sumCells (fun c _ => l2Sq cfg c.elem u) m.cells r.sols ∧
      r.errs.H1err = sumCells (fun c v => energySq cfg c.elem fun x k => gu x k -
        evalGradTail (c.elem.basis cfg.rd) (app (n c) (operator S cfg m c).1 v) x k) m.cells r.sols ∧
      r.errs.H1norm = sumCells (fun c _ => energySq cfg c.elem gu) m.cells r.sols ∧
      r.errs.Aerr = sumCells (fun c v => form (n c) (operator S cfg m c).2 (fun i => I c i - v i) fun i => I c i - v i)
        m.cells r.sols ∧
      r.errs.Anorm = sumCells (fun c _ => form (n c) (operator S cfg m c).2 (I c) (I c)) m.cells r.sols := by
  obtain ⟨s, h⟩ := bind_of_ok h
  obtain ⟨s', h⟩ := bind_of_ok h
  obtain ⟨sols, h1, h2, h3⟩ := postLoop_errs S F s' _ _ _ _ h
  rw [List.nil_append] at h1
  subst h1
  simp only [zero_add] at h3
  rw [h3]
  exact ⟨h2, rfl, rfl, rfl, rfl, rfl, rfl⟩

example (up : Bool) (f u : ℚ → ℚ) : ∃ r, run (exactSolver ℚ) (exactLDLT ℚ) (exactLU ℚ) (lineCfg up) lineMesh f u
    (fun _ _ => 1) = .ok r ∧ r.sols.length = 2 := by
  obtain ⟨r, v, W, h, _⟩ := c170_discrete (exactSolver ℚ) (exactLDLT ℚ) (exactLU ℚ) exactLDLT_spd (lineTens up)
    (lineTensNonneg up) (lineDegrees up) (lineSolvable up) f u fun _ _ => 1
  exact ⟨r, h, (c171_errors h).1⟩

end Verif.Props.HhoSolver
