import Verif.Lemmas.HhoSolverGlobal
/-!
The HHO diffusion solver solves the discrete problem.
-/
namespace Verif.Lemmas.HhoSolver
open Finset Matrix Verif.Hho Verif.HhoSolver Verif.Spec.Hho Verif.Spec.HhoSolver Verif.Lemmas.Hho LocalMatrix
open Verif.Condensation Verif.Spec Verif.Assembly

section
variable {K : Type} [CommRing K]

/-- The recovered vector satisfies the cell rows. -/
theorem decondense_rows (F : LDLT K) (nc nf : Nat) (lhs : Matrix (Fin (nc + nf)) (Fin (nc + nf)) K) (rhs : List K)
    (hlen : rhs.length = nc) (hs : ∀ i j, topLeft lhs i j = topLeft lhs j i) (hu : IsUnit (topLeft lhs).det)
    (hok : F.success (topLeft lhs) = true) (y : Fin nf → K) :
    ∃ x, decondense F nc nf lhs rhs y = .ok x ∧ (∀ i, x (Fin.natAdd nc i) = y i) ∧
      ∀ i : Fin nc, (lhs *ᵥ x) (Fin.castAdd nf i) = rhs.getD i 0 := by
  refine ⟨_, by unfold decondense; rw [if_neg (by omega)], fun i => by simp [join], fun i => ?_⟩
  have h := (solve_iff F _ hs hu hok (head rhs nc - topRight lhs *ᵥ y) _).2 rfl
  have hf := ((full_iff lhs _ (join (F.solve (topLeft lhs) (head rhs nc - topRight lhs *ᵥ y)) y)).1 rfl).1
  simp only [join, Fin.append_left, Fin.append_right] at hf
  have hf' := congrFun hf i
  rw [show (fun i => F.solve (topLeft lhs) (head rhs nc - topRight lhs *ᵥ y) i) =
    F.solve (topLeft lhs) (head rhs nc - topRight lhs *ᵥ y) from rfl, h] at hf'
  refine hf'.symm.trans ?_
  simp [head]

end

variable {K P : Type} [Field K] {cfg : Config K} {N : Nat}

/-- One cell: the condensed system and the recovery, for any face values. -/
theorem cond_solve (S : Solver K) (F : LDLT K) (ht : TensSym cfg.d (some cfg.tens)) (hD : Degrees cfg N)
    {m : DMesh P K} (f : P → K) {c : DCell P K} {C : PolyCell cfg.d c.elem (m.faces c) N}
    (hR : Regular cfg c.elem (m.faces c) C) (hS : CellSolvable S F cfg m c) :
    ∃ sc, condenseCell S F cfg m f c = .ok sc ∧ sc.fcs = c.fcs.map Prod.fst ∧ sc.lhs.rows = numFace cfg c ∧
      sc.lhs.cols = numFace cfg c ∧ sc.rhs.length = numFace cfg c ∧
      ∀ y : Nat → K, ∃ v : Nat → K, (∀ j < numFace cfg c, v (numCell cfg c + j) = y j) ∧
        (∀ i < numCell cfg c, app (numCell cfg c + numFace cfg c) (operator S cfg m c).2 v i =
          (loadVec cfg c f).getD i 0) ∧
        (∀ i < numFace cfg c, (∑ j ∈ range (numFace cfg c), sc.lhs.entry i j * y j) - sc.rhs.getD i 0 =
          app (numCell cfg c + numFace cfg c) (operator S cfg m c).2 v (numCell cfg c + i)) ∧
        decondense F (numCell cfg c) (numFace cfg c) (sized _ (operator S cfg m c).2) (loadVec cfg c f)
          (fun i => y i) = .ok fun i => v i := by
  obtain ⟨r, hr, hx⟩ := condense_resid F (numCell cfg c) (numFace cfg c) (sized _ (operator S cfg m c).2)
    (loadVec cfg c f) (loadVec_length cfg c f) (topLeft_sym S ht hD hR) hS.1 hS.2
  refine ⟨_, by unfold condenseCell; rw [hr, Outcome.bind_ok], rfl, rfl, rfl, by simp, fun y => ?_⟩
  obtain ⟨x, x1, x2, x3⟩ := decondense_rows F (numCell cfg c) (numFace cfg c) (sized _ (operator S cfg m c).2)
    (loadVec cfg c f) (loadVec_length cfg c f) (topLeft_sym S ht hD hR) hS.1 hS.2 fun i => y i
  have he : (fun j : Fin (numCell cfg c + numFace cfg c) => ext0 x j) = x := funext fun j => ext0_fin x j
  obtain ⟨h1, _⟩ := hx x x3
  refine ⟨ext0 x, fun j hj => ?_, fun i hi => ?_, fun i hi => ?_, by rw [x1, he]⟩
  · rw [← x2 ⟨j, hj⟩, ← ext0_fin x]
    rfl
  · have := x3 ⟨i, hi⟩
    rw [← he, mulVec_sized] at this
    exact this
  · have := h1 ⟨i, hi⟩
    rw [show (fun i => x (Fin.natAdd (numCell cfg c) i)) = fun i : Fin (numFace cfg c) => y i from funext x2] at this
    rw [← he, mulVec_sized] at this
    refine Eq.trans ?_ this
    congr 1
    · rw [Finset.sum_range]
      simp only [Matrix.mulVec, dotProduct]
      refine Finset.sum_congr rfl fun j _ => ?_
      rw [dif_pos (show i < numFace cfg c ∧ j.1 < numFace cfg c from ⟨hi, j.2⟩)]
    · simp [List.getD_eq_getElem?_getD, hi]

/-- The face unknowns of a cell, from values on the faces of the mesh. -/
def gather (cfg : Config K) (c : DCell P K) (W : Nat → Nat → K) (j : Nat) : K :=
  W ((c.fcs.map Prod.fst).getD (j / cfg.fbs) 0) (j % cfg.fbs)

theorem gather_eq (c : DCell P K) (W : Nat → Nat → K) (p : Nat) {k : Nat} (hk : k < cfg.fbs) :
    gather cfg c W (p * cfg.fbs + k) = W ((c.fcs.map Prod.fst).getD p 0) k := by
  unfold gather
  rw [Nat.mul_comm p, Nat.mul_add_div (by omega), Nat.div_eq_of_lt hk, Nat.mul_add_mod, Nat.mod_eq_of_lt hk, add_zero]

theorem slot_lt {c : DCell P K} {p k : Nat} (hp : p < c.fcs.length) (hk : k < cfg.fbs) :
    p * cfg.fbs + k < numFace cfg c := by
  have : (p + 1) * cfg.fbs ≤ c.fcs.length * cfg.fbs := Nat.mul_le_mul_right _ hp
  rw [Nat.add_mul] at this
  unfold numFace
  omega

/-- The second loop stores the local vectors. -/
theorem postLoop_sols (S : Solver K) (F : LDLT K) {m : DMesh P K} {f u : P → K} {gu : P → Nat → K} (s : State K)
    (sol : List K) (v : DCell P K → Nat → K) (cells : List (DCell P K))
    (h : ∀ c ∈ cells, ∃ l, takeLocal s (dirichletData S cfg m u) sol (c.fcs.map Prod.fst) = .ok l ∧
      decondense F (numCell cfg c) (numFace cfg c) (sized _ (operator S cfg m c).2) (loadVec cfg c f)
          (fun i => l.getD i 0) = .ok fun i => v c i) (r : Result K) :
    ∃ r', postLoop S F cfg m f u gu s sol cells r = .ok r' ∧
      r'.sols = r.sols ++ cells.map fun c => (List.range (numCell cfg c + numFace cfg c)).map (v c) := by
  induction cells generalizing r with
  | nil => exact ⟨r, rfl, by simp⟩
  | cons c cs ih =>
    obtain ⟨l, hl, hd⟩ := h c List.mem_cons_self
    obtain ⟨r', h1, h2⟩ := ih (fun c hc => h c (List.mem_cons_of_mem _ hc))
      ⟨r.sols ++ [List.ofFn fun i : Fin (numCell cfg c + numFace cfg c) => v c i],
        cellErrors cfg c (numCell cfg c + numFace cfg c) (operator S cfg m c) u gu
          (fun i => (List.ofFn fun i : Fin (numCell cfg c + numFace cfg c) => v c i).getD i 0)
          (project S c.elem (m.faces c) cfg.cd cfg.fd cfg.fbs 2 u) r.errs⟩
    refine ⟨r', ?_, ?_⟩
    · simp only [postLoop]
      rw [hl, Outcome.bind_ok, hd, Outcome.bind_ok]
      exact h1
    · rw [h2, List.append_assoc, List.map_cons, list_ofFn_range]
      rfl

/-- If the condensed systems are solvable, the solver returns a solution of the discrete problem. -/
theorem run_discrete (S : Solver K) (F : LDLT K) (lu : LU K) (ht : TensSym cfg.d (some cfg.tens)) (hD : Degrees cfg N)
    {m : DMesh P K} (f u : P → K) (gu : P → Nat → K)
    (hreg : ∀ c ∈ m.cells, ∃ C : PolyCell cfg.d c.elem (m.faces c) N, Regular cfg c.elem (m.faces c) C)
    (hS : ∀ c ∈ m.cells, CellSolvable S F cfg m c) (hrange : ∀ c ∈ m.cells, ∀ q ∈ c.fcs, q.1 < m.bnd.length)
    (hG : ∀ s s', construct m.bnd cfg.fbs = .ok s → assembleLoop S F cfg m f u m.cells s = .ok s' →
      Nonsing s'.systemSize (toMat s'.triplets)) :
    ∃ r v W, run S F lu cfg m f u gu = .ok r ∧
      DiscreteSolution cfg m (fun c => (operator S cfg m c).2) (fun c i => (loadVec cfg c f).getD i 0)
        (dirichletData S cfg m u) v W ∧
      r.sols = m.cells.map fun c => (List.range (numCell cfg c + numFace cfg c)).map (v c) := by
  classical
  have hstep : ∀ c ∈ m.cells, _ := fun c (hc : c ∈ m.cells) =>
    cond_solve S F ht hD f (hreg c hc).choose_spec (hS c hc)
  have hcond : ∀ c ∈ m.cells, condenseCell S F cfg m f c = .ok (condOf S F cfg m f c) := by
    intro c hc
    obtain ⟨sc, h, _⟩ := hstep c hc
    rw [condOf_eq h, h]
  have hcell : ∀ sc ∈ m.cells.map (condOf S F cfg m f), (∀ i ∈ sc.fcs, i < m.bnd.length) ∧
      sc.lhs.rows = sc.fcs.length * cfg.fbs ∧ sc.lhs.cols = sc.fcs.length * cfg.fbs ∧
      sc.rhs.length = sc.fcs.length * cfg.fbs := by
    intro sc hsc
    obtain ⟨c, hc, rfl⟩ := List.mem_map.1 hsc
    obtain ⟨sc, h, h1, h2, h3, h4, _⟩ := hstep c hc
    rw [condOf_eq h, h1, List.length_map]
    refine ⟨fun i hi => ?_, h2, h3, h4⟩
    obtain ⟨q, hq, rfl⟩ := List.mem_map.1 hi
    exact hrange c hc q hq
  obtain ⟨s, s', k1, k2, keq⟩ := Props.Assembly.c22_equivalence m.bnd cfg.fbs (dirichletData S cfg m u)
    (m.cells.map (condOf S F cfg m f)) hcell
  obtain ⟨t, l1, ldir, lfbs, lg, _⟩ := construct_spec (R := K) m.bnd cfg.fbs
  rw [k1] at l1
  cases l1
  obtain ⟨t', l2, lsame, _⟩ := assembleAll_spec (dirichletData S cfg m u) (m.cells.map (condOf S F cfg m f)) s lg
    (by rw [ldir, lfbs]; exact hcell)
  rw [k2] at l2
  cases l2
  have hloop : assembleLoop S F cfg m f u m.cells s = .ok s' := by
    rw [assembleLoop_eq S F cfg m f u (condOf S F cfg m f) m.cells hcond, k2]
  have hg' := lg.same lsame
  have hfb : s'.fbs = cfg.fbs := lsame.fbs.trans lfbs
  have hdr : s'.dir = m.bnd := lsame.dir.trans ldir
  let x : Nat → K := fun j => (globalSolve lu s').getD j 0
  let W : Nat → Nat → K := faceValue m.bnd cfg.fbs (dirichletData S cfg m u) x
  have hx : ∀ g < s'.systemSize, ∑ j ∈ range s'.systemSize, toMat s'.triplets g j * x j = s'.rhs.getD g 0 := by
    intro g hg
    rw [← lu.solves s'.systemSize (toMat s'.triplets) (fun i => s'.rhs.getD i 0) (hG s s' k1 hloop) g hg]
    refine sum_congr rfl fun j hj => ?_
    have := mem_range.1 hj
    simp [x, globalSolve, List.getD_eq_getElem?_getD, this]
  have hres := (keq x).1 hx
  have hv : ∀ c : DCell P K, ∃ v : Nat → K, c ∈ m.cells → (∀ j < numFace cfg c, v (numCell cfg c + j) = gather cfg c W j) ∧
        (∀ i < numCell cfg c, app (numCell cfg c + numFace cfg c) (operator S cfg m c).2 v i =
          (loadVec cfg c f).getD i 0) ∧
        (∀ i < numFace cfg c, (∑ j ∈ range (numFace cfg c), (condOf S F cfg m f c).lhs.entry i j * gather cfg c W j) -
            (condOf S F cfg m f c).rhs.getD i 0 =
          app (numCell cfg c + numFace cfg c) (operator S cfg m c).2 v (numCell cfg c + i)) ∧
        decondense F (numCell cfg c) (numFace cfg c) (sized _ (operator S cfg m c).2) (loadVec cfg c f)
          (fun i => gather cfg c W i) = .ok fun i => v i := by
    intro c
    by_cases hc : c ∈ m.cells
    · obtain ⟨sc, h, _, _, _, _, hy⟩ := hstep c hc
      obtain ⟨v, hv⟩ := hy (gather cfg c W)
      rw [condOf_eq h]
      exact ⟨v, fun _ => hv⟩
    · exact ⟨fun _ => 0, fun h => absurd h hc⟩
  choose v hv using hv
  obtain ⟨r, r1, r2⟩ := postLoop_sols S F (m := m) (f := f) (u := u) (gu := gu) s' (globalSolve lu s') v m.cells
    (fun c hc => by
      obtain ⟨l, w1, w2, w3⟩ := takeLocal_spec s' hg' (dirichletData S cfg m u) (globalSolve lu s')
        (by simp [globalSolve]) (c.fcs.map Prod.fst) (fun i hi => by
          obtain ⟨q, hq, rfl⟩ := List.mem_map.1 hi
          rw [hdr]
          exact hrange c hc q hq)
      refine ⟨l, w1, ?_⟩
      rw [← (hv c hc).2.2.2]
      congr 1
      funext i
      have hi : i.1 < c.fcs.length * cfg.fbs := i.2
      have hb : 0 < cfg.fbs := by
        rcases Nat.eq_zero_or_pos cfg.fbs with h | h
        · rw [h] at hi; omega
        · exact h
      have hdiv : i.1 / cfg.fbs < c.fcs.length := (Nat.div_lt_iff_lt_mul hb).2 hi
      have hmod := Nat.mod_lt i.1 hb
      have := w3 (i.1 / cfg.fbs) (i.1 % cfg.fbs) (by rw [List.length_map]; exact hdiv) (by rw [hfb]; exact hmod)
      rw [hfb, hdr, Nat.div_add_mod'] at this
      exact this) ⟨[], ⟨0, 0, 0, 0, 0, 0⟩⟩
  refine ⟨r, v, W, ?_, ⟨fun c hc p q hq k hk => ?_, fun i k hi _ => ?_, fun c hc => (hv c hc).2.1, fun i k hi hk => ?_⟩,
    by simpa using r2⟩
  · unfold run
    rw [k1, Outcome.bind_ok, hloop, Outcome.bind_ok]
    exact r1
  · have hp : p < c.fcs.length := (List.getElem?_eq_some_iff.1 hq).1
    rw [Nat.add_assoc, (hv c hc).1 _ (slot_lt hp hk), gather_eq c W p hk, List.getD_eq_getElem?_getD, List.getElem?_map, hq]
    rfl
  · simp only [W, faceValue]
    rw [if_pos hi]
  · have := hres i k hi hk
    rw [List.map_map] at this
    refine Eq.trans ?_ this
    congr 1
    refine List.map_congr_left fun c hc => ?_
    obtain ⟨sc, h, h1, _⟩ := hstep c hc
    simp only [Function.comp, cellResidual]
    have hfc : (condOf S F cfg m f c).fcs = c.fcs.map Prod.fst := by rw [condOf_eq h, h1]
    rw [hfc, List.length_map]
    refine sum_congr rfl fun p hp => ?_
    have hp := mem_range.1 hp
    split_ifs
    · rw [Nat.add_assoc, ← (hv c hc).2.2.1 _ (slot_lt hp hk)]
      unfold localResidual
      congr 1
      refine (Assembly.sum_blocks c.fcs.length cfg.fbs _).trans ?_
      rw [List.length_map]
      refine sum_congr rfl fun p' _ => sum_congr rfl fun k' hk' => ?_
      rw [gather_eq c W p' (mem_range.1 hk')]
    · rfl

/-- The discrete problem has at most one solution. -/
theorem discrete_unique {K : Type} [Field K] [LinearOrder K] [IsStrictOrderedRing K] {cfg : Config K} (S : Solver K)
    (ht : TensSym cfg.d (some cfg.tens)) (hT : TensNonneg cfg) (hD : Degrees cfg N) {m : DMesh P K}
    (hM : SolvableMesh cfg m N) {b : DCell P K → Nat → K} {g : Nat → Nat → K} {v v' : DCell P K → Nat → K}
    {W W' : Nat → Nat → K} (h : DiscreteSolution cfg m (fun c => (operator S cfg m c).2) b g v W)
    (h' : DiscreteSolution cfg m (fun c => (operator S cfg m c).2) b g v' W') :
    ∀ c ∈ m.cells, ∀ j < numCell cfg c + numFace cfg c, v c j = v' c j := by
  let w : DCell P K → Nat → K := fun c j => v c j - v' c j
  let z : Nat → Nat → K := fun i k => if k < cfg.fbs then W i k - W' i k else 0
  have happ : ∀ c i, app (numCell cfg c + numFace cfg c) (operator S cfg m c).2 (w c) i =
      app (numCell cfg c + numFace cfg c) (operator S cfg m c).2 (v c) i -
      app (numCell cfg c + numFace cfg c) (operator S cfg m c).2 (v' c) i := by
    intro c i
    simp only [app, w, mul_sub, sum_sub_distrib]
  have htr : ∀ c ∈ m.cells, ∀ p q, c.fcs[p]? = some q → ∀ k < cfg.fbs,
      w c (numCell cfg c + p * cfg.fbs + k) = z q.1 k := by
    intro c hc p q hq k hk
    simp only [w, z]
    rw [if_pos hk, h.trace c hc p q hq k hk, h'.trace c hc p q hq k hk]
  have hzb : ∀ i k, m.bnd[i]? = some true → z i k = 0 := by
    intro i k hi
    simp only [z]
    split_ifs with hk
    · rw [h.dirichlet i k hi hk, h'.dirichlet i k hi hk, sub_self]
    · rfl
  have hform : ∀ c ∈ m.cells, form (numCell cfg c + numFace cfg c) (operator S cfg m c).2 (w c) (w c) =
      ∑ i ∈ range m.bnd.length, ∑ k ∈ range cfg.fbs, z i k * (∑ p ∈ range c.fcs.length,
        if (c.fcs.map Prod.fst).getD p 0 = i then app (numCell cfg c + numFace cfg c) (operator S cfg m c).2 (w c)
          (numCell cfg c + p * cfg.fbs + k) else 0) := by
    intro c hc
    have hs := sum_faces cfg.fbs m.bnd.length (c.fcs.map Prod.fst) (fun i hi => by
      obtain ⟨q, hq, rfl⟩ := List.mem_map.1 hi
      exact hM.range c hc q hq) (fun p k => app (numCell cfg c + numFace cfg c) (operator S cfg m c).2 (w c)
          (numCell cfg c + p * cfg.fbs + k)) z
    rw [List.length_map] at hs
    rw [hs]
    unfold form
    rw [Finset.sum_range_add, sum_eq_zero (s := range (numCell cfg c)) fun i hi => by
      rw [happ, h.cellRows c hc i (mem_range.1 hi), h'.cellRows c hc i (mem_range.1 hi), sub_self, mul_zero], zero_add]
    refine (Assembly.sum_blocks c.fcs.length cfg.fbs _).trans ?_
    refine sum_congr rfl fun p hp => sum_congr rfl fun k hk => ?_
    have hp := mem_range.1 hp
    have hq : c.fcs[p]? = some c.fcs[p] := List.getElem?_eq_getElem hp
    rw [← Nat.add_assoc, htr c hc p _ hq k (mem_range.1 hk)]
    congr 2
    simp [List.getD_eq_getElem?_getD, hp]
  have hen : (m.cells.map fun c => form (numCell cfg c + numFace cfg c) (operator S cfg m c).2 (w c) (w c)).sum = 0 := by
    rw [List.map_congr_left hform, list_sum_finset]
    refine sum_eq_zero fun i hi => ?_
    rw [list_sum_finset]
    refine sum_eq_zero fun k hk => ?_
    rw [list_sum_mul]
    rcases bnd_cases (mem_range.1 hi) with hb | hb
    · rw [hzb i k hb, zero_mul]
    · have e : (m.cells.map fun c => ∑ p ∈ range c.fcs.length, if (c.fcs.map Prod.fst).getD p 0 = i then
          app (numCell cfg c + numFace cfg c) (operator S cfg m c).2 (w c) (numCell cfg c + p * cfg.fbs + k) else 0).sum =
          (m.cells.map fun c => ∑ p ∈ range c.fcs.length, if (c.fcs.map Prod.fst).getD p 0 = i then
          app (numCell cfg c + numFace cfg c) (operator S cfg m c).2 (v c) (numCell cfg c + p * cfg.fbs + k) else 0).sum -
          (m.cells.map fun c => ∑ p ∈ range c.fcs.length, if (c.fcs.map Prod.fst).getD p 0 = i then
          app (numCell cfg c + numFace cfg c) (operator S cfg m c).2 (v' c) (numCell cfg c + p * cfg.fbs + k)
            else 0).sum := by
        rw [list_sum_sub]
        congr 1
        refine List.map_congr_left fun c _ => ?_
        rw [← sum_sub_distrib]
        refine sum_congr rfl fun p _ => ?_
        split_ifs
        · exact happ c _
        · exact (sub_self _).symm
      rw [e, h.balance i k hb (mem_range.1 hk), h'.balance i k hb (mem_range.1 hk), sub_self, mul_zero]
  have hzero := list_sum_zero (fun c hc => by
    obtain ⟨C, hR⟩ := hM.cell c hc
    exact cell_nonneg S ht hT hD hR (hM.positive c hc) (w c)) hen
  have hker : ∀ c ∈ m.cells, (∀ j < numCell cfg c, 0 < j → w c j = 0) ∧ ∀ q ∈ c.fcs, ∀ i < cfg.fbs, app cfg.fbs
      (mass (m.face q.1) cfg.fd ((m.face q.1).basis cfg.fd)) (z q.1) i = w c 0 * ones cfg (m.face q.1) i := by
    intro c hc
    obtain ⟨C, hR⟩ := hM.cell c hc
    obtain ⟨h1, h2⟩ := cell_zero S ht hT hD hR (hM.positive c hc) (hzero c hc)
    refine ⟨h1, fun q hq i hi => ?_⟩
    obtain ⟨p, hp⟩ := List.getElem?_of_mem hq
    rw [← h2 p q hp i hi]
    refine sum_congr rfl fun j hj => ?_
    rw [show seg (numCell cfg c + p * cfg.fbs) (w c) j = z q.1 j from htr c hc p q hp j (mem_range.1 hj)]
  intro c hc j hj
  have h0 := anchored_zero hD hM hzb (fun c hc => ⟨w c 0, (hker c hc).2⟩) (hM.anchored c hc) hc _ (hker c hc).2
  obtain ⟨C, hR⟩ := hM.cell c hc
  have hw : w c j = 0 := by
    rcases Nat.lt_or_ge j (numCell cfg c) with hlt | hge
    · rcases Nat.eq_zero_or_pos j with rfl | hp
      · exact h0
      · exact (hker c hc).1 j hlt hp
    · have hlt : j - numCell cfg c < c.fcs.length * cfg.fbs := by unfold numFace at hj; omega
      have hb : 0 < cfg.fbs := by
        rcases Nat.eq_zero_or_pos cfg.fbs with h | h
        · rw [h] at hlt; omega
        · exact h
      have hdiv : (j - numCell cfg c) / cfg.fbs < c.fcs.length := (Nat.div_lt_iff_lt_mul hb).2 hlt
      have hmod := Nat.mod_lt (j - numCell cfg c) hb
      have hq := List.getElem?_eq_getElem hdiv
      have := htr c hc _ _ hq _ hmod
      rw [Nat.add_assoc, Nat.div_add_mod', show numCell cfg c + (j - numCell cfg c) = j by omega] at this
      rw [this]
      have hqm := List.mem_of_getElem? hq
      have hm := hR.massFace _ (mem_faces (m := m) hqm)
      rw [hR.size _ (mem_faces hqm)] at hm
      exact hm (z _) (fun i hi => by
        have := (hker c hc).2 _ hqm i hi
        rw [h0, zero_mul] at this
        exact this) _ hmod
  exact sub_eq_zero.1 hw

end Verif.Lemmas.HhoSolver
