import Verif.Lemmas.HhoSolverCell
import Verif.Props.Assembly
/-!
The loops of the HHO diffusion solver on a mesh with a polynomial solution.
-/
namespace Verif.Lemmas.HhoSolver
open Finset Verif.Hho Verif.HhoSolver Verif.Spec.Hho Verif.Spec.HhoSolver Verif.Lemmas.Hho LocalMatrix
open Verif.Condensation Verif.Spec Verif.Assembly

variable {K P : Type} [Field K] {cfg : Config K} {N : Nat}

theorem assembleLoop_eq (S : Solver K) (F : LDLT K) (cfg : Config K) (m : DMesh P K) (f u : P → K)
    (g : DCell P K → Assembly.Cell K) (cells : List (DCell P K))
    (h : ∀ c ∈ cells, condenseCell S F cfg m f c = .ok (g c)) (s : State K) :
    assembleLoop S F cfg m f u cells s = assembleAll (dirichletData S cfg m u) (cells.map g) s := by
  induction cells generalizing s with
  | nil => rfl
  | cons c cs ih =>
    simp only [assembleLoop, assembleAll, List.map_cons]
    rw [h c List.mem_cons_self, Outcome.bind_ok]
    congr 1
    funext s'
    exact ih (fun c hc => h c (List.mem_cons_of_mem _ hc)) s'

/-- The condensed cell. -/
def condOf (S : Solver K) (F : LDLT K) (cfg : Config K) (m : DMesh P K) (f : P → K) (c : DCell P K) : Assembly.Cell K :=
  match condenseCell S F cfg m f c with
  | .ok sc => sc
  | _ => ⟨[], ⟨0, 0, fun _ _ => 0⟩, []⟩

theorem condOf_eq {S : Solver K} {F : LDLT K} {cfg : Config K} {m : DMesh P K} {f : P → K} {c : DCell P K}
    {sc : Assembly.Cell K} (h : condenseCell S F cfg m f c = .ok sc) : condOf S F cfg m f c = sc := by
  simp [condOf, h]

theorem fluxMoment_sum (cfg : Config K) (m : DMesh P K) (gu : P → Nat → K) (i k : Nat) (cells : List (DCell P K)) :
    (cells.map fun c => fluxMoment cfg m gu i (cellNormal c i) k).sum =
      fluxMoment cfg m gu i (fun e => (cells.map fun c => cellNormal c i e).sum) k := by
  induction cells with
  | nil =>
    rw [fluxMoment_zero]
    · rfl
    · intro _ _; rfl
  | cons c cs ih =>
    simp only [List.map_cons, List.sum_cons, ih]
    rw [fluxMoment_add]

/-- The unknowns of the exact solution in the numbering of the assembler. -/
def exactVec (S : Solver K) (cfg : Config K) (m : DMesh P K) (u : P → K) (j : Nat) : K :=
  projectElem S (m.face ((unknownFaces m.bnd).getD (j / cfg.fbs) 0)) cfg.fd u 2 (j % cfg.fbs)

theorem bnd_cases {l : List Bool} {i : Nat} (h : i < l.length) : l[i]? = some true ∨ l[i]? = some false := by
  rw [List.getElem?_eq_getElem h]
  cases l[i] <;> simp

theorem faceValue_exact (S : Solver K) (hD : Degrees cfg N) {m : DMesh P K} {f u : P → K} {gu : P → Nat → K}
    {F : LDLT K} (hM : PatchMesh S F cfg m N f u gu) {v : Nat → K}
    (hv : ∀ j < cfg.fbs * m.bnd.count false, v j = exactVec S cfg m u j) {c : DCell P K} (hc : c ∈ m.cells)
    {q : Nat × (Nat → K)} (hq : q ∈ c.fcs) {k : Nat} (hk : k < cfg.fbs) :
    faceValue m.bnd cfg.fbs (dirichletData S cfg m u) v q.1 k = projectElem S (m.face q.1) cfg.fd u 2 k := by
  rcases bnd_cases (hM.range c hc q hq) with hb | hb
  · rw [faceValue, if_pos hb]
    exact dirichlet_eq S hD (hM.cell c hc) hq hk
  · rw [faceValue, if_neg (by rw [hb]; simp)]
    have hlt := unknownPos_lt m.bnd q.1 hb
    have : unknownPos m.bnd q.1 * cfg.fbs + cfg.fbs ≤ cfg.fbs * m.bnd.count false := by
      have := Nat.mul_le_mul_right cfg.fbs hlt
      rw [Nat.succ_mul] at this
      rw [Nat.mul_comm cfg.fbs]
      exact this
    rw [hv _ (by omega), exactVec]
    have e1 : (unknownPos m.bnd q.1 * cfg.fbs + k) / cfg.fbs = unknownPos m.bnd q.1 := by
      rw [Nat.mul_comm, Nat.mul_add_div (by omega), Nat.div_eq_of_lt hk, Nat.add_zero]
    have e2 : (unknownPos m.bnd q.1 * cfg.fbs + k) % cfg.fbs = k := by
      rw [Nat.mul_comm, Nat.mul_add_mod, Nat.mod_eq_of_lt hk]
    rw [e1, e2, List.getD_eq_getElem?_getD, unknownFaces_pos m.bnd q.1 hb]
    rfl

omit [Field K] in
theorem list_ofFn_range (n : Nat) (x : Nat → K) : List.ofFn (fun i : Fin n => x i) = (List.range n).map x := by
  refine List.ext_getElem (by simp) fun i h1 h2 => ?_
  simp

theorem fold_errs (a b c : QP P K → K) (qs : List (QP P K)) (e : Errors K) :
    let e' := qs.foldl (fun e q =>
      { e with
        L2norm := e.L2norm + a q
        H1err := e.H1err + b q
        H1norm := e.H1norm + c q }) e
    e'.Merr = e.Merr ∧ e'.Aerr = e.Aerr ∧ e'.H1err = e.H1err + (qs.map b).sum := by
  induction qs generalizing e with
  | nil => exact ⟨rfl, rfl, by simp⟩
  | cons q qs ih =>
    obtain ⟨h1, h2, h3⟩ := ih { e with L2norm := e.L2norm + a q, H1err := e.H1err + b q, H1norm := e.H1norm + c q }
    refine ⟨h1, h2, ?_⟩
    simp only [List.foldl_cons, List.map_cons, List.sum_cons]
    rw [h3]
    ring

theorem quadForm_zero {n : Nat} (M : Hho.Mat K) {x : Nat → K} (h : ∀ i < n, x i = 0) : quadForm n M x = 0 :=
  sum_eq_zero fun i hi => by rw [h i (mem_range.1 hi), zero_mul]

/-- A cell on which the computed solution is the interpolate contributes nothing to the errors. -/
theorem cellErrors_exact {cfg : Config K} {c : DCell P K} {n : Nat} {op : Hho.Mat K × Hho.Mat K} {u : P → K} {gu : P → Nat → K}
    {full real : Nat → K} (hn : (c.elem.basis cfg.cd).size ≤ n) (h : ∀ i < n, full i = real i)
    (hg : ∀ x, ∀ k < cfg.d, gu x k = gradTail (c.elem.basis cfg.rd) (fun i => ∑ j ∈ range n, op.1 i j * full j) x k)
    (e : Errors K) :
    let e' := cellErrors cfg c n op u gu full real e
    e'.Merr = e.Merr ∧ e'.H1err = e.H1err ∧ e'.Aerr = e.Aerr := by
  obtain ⟨h1, h2, h3⟩ := fold_errs (fun q : QP P K => q.w * u q.pt * u q.pt)
    (fun q => q.w * tensSq cfg.d cfg.tens fun k => gu q.pt k -
      gradTail (c.elem.basis cfg.rd) (fun i => ∑ j ∈ range n, op.1 i j * full j) q.pt k)
    (fun q => q.w * tensSq cfg.d cfg.tens (gu q.pt)) (c.elem.integrate (2 * cfg.cd + 2)) e
  refine ⟨?_, ?_, ?_⟩
  · simp only [cellErrors]
    rw [h1, quadForm_zero _ fun i hi => sub_eq_zero.2 (h i (by omega)).symm, add_zero]
  · simp only [cellErrors]
    rw [h3, List.sum_eq_zero, add_zero]
    intro x hx
    obtain ⟨q, _, rfl⟩ := List.mem_map.1 hx
    have : (tensSq cfg.d cfg.tens fun k => gu q.pt k -
        gradTail (c.elem.basis cfg.rd) (fun i => ∑ j ∈ range n, op.1 i j * full j) q.pt k) = 0 := by
      unfold tensSq dot
      refine sum_eq_zero fun k hk => ?_
      exact mul_eq_zero_of_left (sub_eq_zero.2 (hg q.pt k (mem_range.1 hk))) _
    rw [this, mul_zero]
  · simp only [cellErrors]
    rw [h2, quadForm_zero _ fun i hi => sub_eq_zero.2 (h i hi).symm, add_zero]

/-- The second loop returns the interpolates and leaves the error accumulators as they are. -/
theorem postLoop_exact (S : Solver K) (F : LDLT K) (ht : TensSym cfg.d (some cfg.tens)) (hD : Degrees cfg N)
    {m : DMesh P K} {f u : P → K} {gu : P → Nat → K} (s : State K) (sol : List K) (cells : List (DCell P K))
    (hP : ∀ c ∈ cells, PatchCell cfg m N f u gu c) (hS : ∀ c ∈ cells, CellSolvable S F cfg m c)
    (hloc : ∀ c ∈ cells, ∃ v, takeLocal s (dirichletData S cfg m u) sol (c.fcs.map Prod.fst) = .ok v ∧
      ∀ p q k, c.fcs[p]? = some q → k < cfg.fbs →
        v.getD (p * cfg.fbs + k) 0 = projectElem S (m.face q.1) cfg.fd u 2 k) (r : Result K) :
    ∃ r', postLoop S F cfg m f u gu s sol cells r = .ok r' ∧
      r'.sols = r.sols ++ cells.map (fun c => (List.range (numCell cfg c + numFace cfg c)).map (realSol S cfg m u c)) ∧
      r'.errs.Merr = r.errs.Merr ∧ r'.errs.H1err = r.errs.H1err ∧ r'.errs.Aerr = r.errs.Aerr := by
  induction cells generalizing r with
  | nil => exact ⟨r, rfl, by simp, rfl, rfl, rfl⟩
  | cons c cs ih =>
    obtain ⟨v, hv1, hv2⟩ := hloc c List.mem_cons_self
    obtain ⟨sc, _, _, _, _, _, _, hdec⟩ := cell_step S F ht hD (hP c List.mem_cons_self) (hS c List.mem_cons_self)
    obtain ⟨C, hR, hE⟩ := hP c List.mem_cons_self
    have hfun : (fun i : Fin (numFace cfg c) => v.getD i 0) =
        fun i : Fin (numFace cfg c) => realSol S cfg m u c (numCell cfg c + i) := by
      funext i
      have hi : i.1 < c.fcs.length * cfg.fbs := i.2
      have hb : 0 < cfg.fbs := by
        rcases Nat.eq_zero_or_pos cfg.fbs with h | h
        · rw [h] at hi; omega
        · exact h
      have hdiv : i.1 / cfg.fbs < c.fcs.length := (Nat.div_lt_iff_lt_mul hb).2 hi
      have hq : c.fcs[i.1 / cfg.fbs]? = some c.fcs[i.1 / cfg.fbs] := List.getElem?_eq_getElem hdiv
      have hmod := Nat.mod_lt i.1 hb
      have e : i.1 / cfg.fbs * cfg.fbs + i.1 % cfg.fbs = i.1 := Nat.div_add_mod' _ _
      have h1 := hv2 _ _ _ hq hmod
      have h2 := real_face S (u := u) hR.size hq hmod
      rw [e] at h1
      rw [Nat.add_assoc, e] at h2
      exact h1.trans h2.symm
    rw [← hfun] at hdec
    obtain ⟨r', h1, h2, h3, h4, h5⟩ := ih (fun c hc => hP c (List.mem_cons_of_mem _ hc))
      (fun c hc => hS c (List.mem_cons_of_mem _ hc)) (fun c hc => hloc c (List.mem_cons_of_mem _ hc))
      ⟨r.sols ++ [List.ofFn fun i : Fin (numCell cfg c + numFace cfg c) => realSol S cfg m u c i],
        cellErrors cfg c (numCell cfg c + numFace cfg c) (operator S cfg m c) u gu
          (fun i => (List.ofFn fun i : Fin (numCell cfg c + numFace cfg c) => realSol S cfg m u c i).getD i 0)
          (project S c.elem (m.faces c) cfg.cd cfg.fd cfg.fbs 2 u) r.errs⟩
    have hn := dofs_eq (m := m) (c := c) hR.size
    have hfull : ∀ i < numCell cfg c + numFace cfg c,
        (List.ofFn fun i : Fin (numCell cfg c + numFace cfg c) => realSol S cfg m u c i).getD i 0 =
          realSol S cfg m u c i := by
      intro i hi
      simp [List.getD_eq_getElem?_getD, hi]
    have herr := cellErrors_exact (cfg := cfg) (c := c) (n := numCell cfg c + numFace cfg c)
      (op := operator S cfg m c) (u := u) (gu := gu)
      (full := fun i => (List.ofFn fun i : Fin (numCell cfg c + numFace cfg c) => realSol S cfg m u c i).getD i 0)
      (real := project S c.elem (m.faces c) cfg.cd cfg.fd cfg.fbs 2 u) (by unfold numCell; omega) hfull (by
        intro x k hk
        obtain ⟨a, ha, hgr⟩ := hE.sol
        have hI := (congrArg (fun z => IsInterp C cfg.cd (uniform cfg.fd (m.faces c)) z (realSol S cfg m u c))
          (show u = evalFn (c.elem.basis cfg.rd) a from funext ha)).mp (real_isInterp S hD hR hE)
        have hop := oper_interp C S ht hD hR hI
        rw [hgr x k hk, ← evalGradTail_eq C]
        unfold evalGradTail gradTail
        refine sum_congr rfl fun j hj => ?_
        congr 1
        refine (hop j (mem_range.1 hj)).symm.trans ?_
        rw [hn, operator_eq S hD]
        refine (sum_congr rfl fun l hl => ?_).symm
        rw [hfull l (mem_range.1 hl)]) r.errs
    refine ⟨r', ?_, ?_, ?_, ?_, ?_⟩
    · simp only [postLoop]
      rw [hv1, Outcome.bind_ok, hdec, Outcome.bind_ok]
      exact h1
    · rw [h2, List.append_assoc]
      congr 1
      rw [list_ofFn_range]
      rfl
    · exact h3.trans herr.1
    · exact h4.trans herr.2.1
    · exact h5.trans herr.2.2

/-- The solver reproduces polynomial solutions. -/
theorem run_exact (S : Solver K) (F : LDLT K) (lu : LU K) (ht : TensSym cfg.d (some cfg.tens)) (hD : Degrees cfg N)
    {m : DMesh P K} {f u : P → K} {gu : P → Nat → K} (hM : PatchMesh S F cfg m N f u gu)
    (hG : ∀ s s', construct m.bnd cfg.fbs = .ok s → assembleLoop S F cfg m f u m.cells s = .ok s' →
      Nonsing s'.systemSize (toMat s'.triplets)) :
    ∃ r, run S F lu cfg m f u gu = .ok r ∧
      r.sols = m.cells.map (fun c => (List.range (numCell cfg c + numFace cfg c)).map (realSol S cfg m u c)) ∧
      r.errs.Merr = 0 ∧ r.errs.H1err = 0 ∧ r.errs.Aerr = 0 := by
  have hstep := fun c (hc : c ∈ m.cells) => cell_step S F ht hD (hM.cell c hc) (hM.solvable c hc)
  have hcond : ∀ c ∈ m.cells, condenseCell S F cfg m f c = .ok (condOf S F cfg m f c) := by
    intro c hc
    obtain ⟨sc, h, _⟩ := hstep c hc
    rw [condOf_eq h, h]
  have hcell : ∀ sc ∈ m.cells.map (condOf S F cfg m f), (∀ i ∈ sc.fcs, i < m.bnd.length) ∧
      sc.lhs.rows = sc.fcs.length * cfg.fbs ∧ sc.lhs.cols = sc.fcs.length * cfg.fbs ∧
      sc.rhs.length = sc.fcs.length * cfg.fbs := by
    intro sc hsc
    obtain ⟨c, hc, rfl⟩ := List.mem_map.1 hsc
    obtain ⟨sc, h, h1, h2, h3, h4, _⟩ := hstep c hc
    rw [condOf_eq h, h1, List.length_map]
    refine ⟨fun i hi => ?_, h2, h3, h4⟩
    obtain ⟨q, hq, rfl⟩ := List.mem_map.1 hi
    exact hM.range c hc q hq
  obtain ⟨s, s', k1, k2, keq⟩ := Props.Assembly.c22_equivalence m.bnd cfg.fbs (dirichletData S cfg m u)
    (m.cells.map (condOf S F cfg m f)) hcell
  obtain ⟨t, l1, ldir, lfbs, lg, _⟩ := construct_spec (R := K) m.bnd cfg.fbs
  rw [k1] at l1
  cases l1
  obtain ⟨t', l2, lsame, _⟩ := assembleAll_spec (dirichletData S cfg m u) (m.cells.map (condOf S F cfg m f)) s lg
    (by rw [ldir, lfbs]; exact hcell)
  rw [k2] at l2
  cases l2
  have hloop : assembleLoop S F cfg m f u m.cells s = .ok s' := by
    rw [assembleLoop_eq S F cfg m f u (condOf S F cfg m f) m.cells hcond, k2]
  have hg' := lg.same lsame
  have hsz : s'.systemSize = cfg.fbs * m.bnd.count false := by
    rw [hg'.size, lsame.fbs, lsame.dir, ldir, lfbs]
  have hns := hG s s' k1 hloop
  -- the exact unknowns solve the system
  have hex : ∀ g < s'.systemSize, ∑ j ∈ range s'.systemSize, toMat s'.triplets g j * exactVec S cfg m u j =
      s'.rhs.getD g 0 := by
    refine (keq (exactVec S cfg m u)).2 fun i k hi hk => ?_
    have e : (m.cells.map (condOf S F cfg m f)).map (fun c => cellResidual cfg.fbs c.fcs c.lhs.entry c.rhs
          (faceValue m.bnd cfg.fbs (dirichletData S cfg m u) (exactVec S cfg m u)) i k) =
        m.cells.map fun c => fluxMoment cfg m gu i (cellNormal c i) k := by
      rw [List.map_map]
      refine List.map_congr_left fun c hc => ?_
      obtain ⟨sc, h, h1, _, _, _, h5, _⟩ := hstep c hc
      obtain ⟨C, hR, hE⟩ := hM.cell c hc
      simp only [Function.comp]
      rw [condOf_eq h, h1]
      refine cellResidual_eq (x := fun j => realSol S cfg m u c (numCell cfg c + j)) h5 (fun p q k hq hk => ?_) hk
      rw [faceValue_exact S hD hM (fun _ _ => rfl) hc (List.mem_of_getElem? hq) hk]
      have := real_face S (u := u) hR.size hq hk
      rwa [Nat.add_assoc] at this
    rw [e, fluxMoment_sum, fluxMoment_zero]
    exact fun e he => hM.normals i hi e he
  have hsol : ∀ j < s'.systemSize, (globalSolve lu s').getD j 0 = exactVec S cfg m u j := by
    intro j hj
    have h1 := lu.solves s'.systemSize (toMat s'.triplets) (fun i => s'.rhs.getD i 0) hns
    have h2 : ∀ j < s'.systemSize, lu.solve s'.systemSize (toMat s'.triplets) (fun i => s'.rhs.getD i 0) j =
        exactVec S cfg m u j := solve_unique hns fun i hi => (h1 i hi).trans (hex i hi).symm
    rw [← h2 j hj]
    simp [globalSolve, List.getD_eq_getElem?_getD, hj]
  obtain ⟨r, h1, h2, h3, h4, h5⟩ := postLoop_exact S F ht hD (m := m) (f := f) (u := u) (gu := gu) s'
    (globalSolve lu s') m.cells hM.cell hM.solvable (fun c hc => by
      obtain ⟨v, hv1, hv2, hv3⟩ := takeLocal_spec s' hg' (dirichletData S cfg m u) (globalSolve lu s')
        (by simp [globalSolve]) (c.fcs.map Prod.fst) (fun i hi => by
          obtain ⟨q, hq, rfl⟩ := List.mem_map.1 hi
          rw [lsame.dir, ldir]
          exact hM.range c hc q hq)
      refine ⟨v, hv1, fun p q k hq hk => ?_⟩
      have hp : p < c.fcs.length := (List.getElem?_eq_some_iff.1 hq).1
      have hfb : s'.fbs = cfg.fbs := lsame.fbs.trans lfbs
      have hdr : s'.dir = m.bnd := lsame.dir.trans ldir
      have := hv3 p k (by rw [List.length_map]; exact hp) (by rw [hfb]; exact hk)
      rw [hfb, hdr] at this
      rw [this]
      have e : (c.fcs.map Prod.fst).getD p 0 = q.1 := by
        rw [List.getD_eq_getElem?_getD, List.getElem?_map, hq]
        rfl
      rw [e]
      exact faceValue_exact S hD hM (fun j hj => hsol j (by rw [hsz]; exact hj)) hc (List.mem_of_getElem? hq) hk)
    ⟨[], ⟨0, 0, 0, 0, 0, 0⟩⟩
  refine ⟨r, ?_, by simpa using h2, h3, h4, h5⟩
  unfold run
  rw [k1, Outcome.bind_ok, hloop, Outcome.bind_ok]
  exact h1

end Verif.Lemmas.HhoSolver
