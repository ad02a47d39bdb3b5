import Verif.Lemmas.HhoSolverRows
import Verif.Lemmas.Condensation
import Verif.Lemmas.AssemblyBasic
/-!
Static condensation of one cell of the HHO diffusion solver, and its contribution to the global residual.
-/
namespace Verif.Lemmas.HhoSolver
open Finset Matrix Verif.Hho Verif.HhoSolver Verif.Spec.Hho Verif.Spec.HhoSolver Verif.Lemmas.Hho LocalMatrix
open Verif.Condensation Verif.Spec

section
variable {K : Type} [CommRing K]

/-- The condensed system at the face part of a vector that satisfies the cell rows. -/
theorem condense_resid (F : LDLT K) (nc nf : Nat) (lhs : Matrix (Fin (nc + nf)) (Fin (nc + nf)) K) (rhs : List K)
    (hlen : rhs.length = nc) (hs : ∀ i j, topLeft lhs i j = topLeft lhs j i) (hu : IsUnit (topLeft lhs).det)
    (hok : F.success (topLeft lhs) = true) :
    ∃ r, condense F nc nf lhs rhs = .ok r ∧
      ∀ x : Fin (nc + nf) → K, (∀ i : Fin nc, (lhs *ᵥ x) (Fin.castAdd nf i) = rhs.getD i 0) →
        (∀ i : Fin nf, (r.AC *ᵥ fun i => x (Fin.natAdd nc i)) i - r.bC i = (lhs *ᵥ x) (Fin.natAdd nc i)) ∧
        decondense F nc nf lhs rhs (fun i => x (Fin.natAdd nc i)) = .ok x := by
  have hne : ¬ (rhs.length ≠ nc ∧ rhs.length ≠ nc + nf) := by omega
  have hz : (if rhs.length = nc + nf then tail rhs nf else 0 : Fin nf → K) = 0 := by
    split_ifs with h
    · have : nf = 0 := by omega
      subst this
      funext i
      exact i.elim0
    · rfl
  refine ⟨_, by unfold condense; rw [if_neg hne]; simp only [hok, if_true, hz]; rfl, ?_⟩
  intro x hx
  have hfull := (full_iff lhs (lhs *ᵥ x) x).1 rfl
  have h1 := hfull.1
  have htop : (fun i => (lhs *ᵥ x) (Fin.castAdd nf i)) = head rhs nc := funext hx
  rw [htop] at h1
  obtain ⟨e1, e2⟩ := (block_elim F _ _ _ _ hs hu hok (head rhs nc) (fun i => x (Fin.castAdd nf i))
    (fun i => (lhs *ᵥ x) (Fin.natAdd nc i)) (fun i => x (Fin.natAdd nc i))).1 ⟨h1, hfull.2⟩
  refine ⟨fun i => ?_, ?_⟩
  · have := congrFun e1 i
    rw [this]
    simp
  · unfold decondense
    rw [if_neg (by omega)]
    congr 1
    rw [join_eq_iff]
    exact ⟨e2, rfl⟩

end

variable {K P : Type} [Field K] {cfg : Config K} {N : Nat}

theorem mulVec_sized (n : Nat) (A : Mat K) (x : Nat → K) (i : Fin n) :
    (sized n A *ᵥ fun j : Fin n => x j) i = app n A x i := by
  simp only [Matrix.mulVec, dotProduct, sized, app]
  rw [Finset.sum_range]

theorem faceAll_get {fd fbs : Nat} {G : Face P K → Nat → Nat → Prop} {fs : List (Face P K)}
    (hs : ∀ g ∈ fs, (g.basis fd).size = fbs) {off : Nat} (h : faceAll G (uniform fd fs) off) {p : Nat} {g : Face P K}
    (hg : fs[p]? = some g) : G g fd (off + p * fbs) := by
  induction fs generalizing off p with
  | nil => simp at hg
  | cons f fs ih =>
    rw [uniform_cons, faceAll, hs f List.mem_cons_self] at h
    cases p with
    | zero =>
      simp only [List.getElem?_cons_zero, Option.some.injEq] at hg
      subst hg
      simpa using h.1
    | succ p =>
      rw [List.getElem?_cons_succ] at hg
      have := ih (fun g hg => hs g (List.mem_cons_of_mem _ hg)) h.2 hg
      rwa [show off + (p + 1) * fbs = off + fbs + p * fbs by ring]

/-- The interpolate the code compares with. -/
def realSol (S : Solver K) (cfg : Config K) (m : DMesh P K) (u : P → K) (c : DCell P K) : Nat → K :=
  project S c.elem (m.faces c) cfg.cd cfg.fd cfg.fbs 2 u

omit [Field K] in
theorem faces_get (m : DMesh P K) (c : DCell P K) (p : Nat) :
    (m.faces c)[p]? = (c.fcs[p]?).map fun q => { toElem := m.face q.1, normal := q.2 } := by
  unfold DMesh.faces
  rw [List.getElem?_map]

omit [Field K] in
theorem faces_length (m : DMesh P K) (c : DCell P K) : (m.faces c).length = c.fcs.length := by simp [DMesh.faces]

omit [Field K] in
theorem dofs_eq {m : DMesh P K} {c : DCell P K} (hs : ∀ g ∈ m.faces c, (g.basis cfg.fd).size = cfg.fbs) :
    dofs cfg c.elem (m.faces c) = numCell cfg c + numFace cfg c := by
  unfold dofs numCell numFace
  rw [facesDofs_uniform hs, faces_length]

/-- The moments of the normal flux on a face, for a normal vector `n`. -/
def fluxMoment (cfg : Config K) (m : DMesh P K) (gu : P → Nat → K) (i : Nat) (n : Nat → K) (k : Nat) : K :=
  quad ((m.face i).integrate (cfg.rd + cfg.fd)) fun x =>
    dot cfg.d (fluxOf cfg.d (some cfg.tens) (gu x)) n * ((m.face i).basis cfg.fd).fn x k

theorem fluxMoment_add (cfg : Config K) (m : DMesh P K) (gu : P → Nat → K) (i : Nat) (n n' : Nat → K) (k : Nat) :
    fluxMoment cfg m gu i (fun c => n c + n' c) k = fluxMoment cfg m gu i n k + fluxMoment cfg m gu i n' k := by
  unfold fluxMoment
  rw [← quad_add]
  refine quad_congr fun q _ => ?_
  simp only [dot, mul_add, sum_add_distrib, add_mul]

theorem fluxMoment_zero (cfg : Config K) (m : DMesh P K) (gu : P → Nat → K) (i : Nat) {n : Nat → K}
    (h : ∀ c < cfg.d, n c = 0) (k : Nat) : fluxMoment cfg m gu i n k = 0 := by
  unfold fluxMoment
  have : ∀ x, dot cfg.d (fluxOf cfg.d (some cfg.tens) (gu x)) n = 0 := fun x =>
    sum_eq_zero fun c hc => by rw [h c (mem_range.1 hc), mul_zero]
  simp [this, quad]

/-- The interpolate of a solution. -/
theorem real_isInterp (S : Solver K) (hD : Degrees cfg N) {m : DMesh P K} {f u : P → K} {gu : P → Nat → K}
    {c : DCell P K} {C : PolyCell cfg.d c.elem (m.faces c) N} (hR : Regular cfg c.elem (m.faces c) C)
    (hE : ExactOn cfg c.elem (m.faces c) C f u gu) :
    IsInterp C cfg.cd (uniform cfg.fd (m.faces c)) u (realSol S cfg m u c) := by
  obtain ⟨a, ha, _⟩ := hE.sol
  have hu : u ∈ C.V cfg.rd := by
    rw [show u = evalFn (c.elem.basis cfg.rd) a from funext ha]
    exact evalFn_mem C cfg.rd a
  have h1 := hD.cell_ge
  have h2 := hD.face_ge
  exact project_isInterp C S hR.size hR.massCell hR.massFace (by omega) (by omega) hD.exactCell hD.exactFace hu

/-- Its face parts. -/
theorem real_face (S : Solver K) {m : DMesh P K} {u : P → K} {c : DCell P K}
    (hs : ∀ g ∈ m.faces c, (g.basis cfg.fd).size = cfg.fbs) {p k : Nat} {q : Nat × (Nat → K)} (hq : c.fcs[p]? = some q)
    (hk : k < cfg.fbs) :
    realSol S cfg m u c ((c.elem.basis cfg.cd).size + p * cfg.fbs + k) = projectElem S (m.face q.1) cfg.fd u 2 k := by
  have hall := projectFaces_all S (c.elem.basis cfg.cd).size cfg.fbs cfg.fd 2 u (m.faces c) hs 0
    (setSegment (fun _ => 0) 0 (c.elem.basis cfg.cd).size (projectElem S c.elem cfg.cd u 2))
  rw [Nat.zero_mul, Nat.add_zero] at hall
  have hg : (m.faces c)[p]? = some { toElem := m.face q.1, normal := q.2 } := by rw [faces_get, hq]; rfl
  have h := faceAll_get hs hall hg k
  rw [hs _ (List.mem_of_getElem? hg)] at h
  exact h hk

/-- The Dirichlet data are the face part of the interpolate. -/
theorem dirichlet_eq (S : Solver K) (hD : Degrees cfg N) {m : DMesh P K} {f u : P → K} {gu : P → Nat → K}
    {c : DCell P K} (hP : PatchCell cfg m N f u gu c) {q : Nat × (Nat → K)} (hq : q ∈ c.fcs) {k : Nat}
    (hk : k < cfg.fbs) : dirichletData S cfg m u q.1 k = projectElem S (m.face q.1) cfg.fd u 2 k := by
  obtain ⟨C, hR, hE⟩ := hP
  obtain ⟨a, ha, _⟩ := hE.sol
  have hu : u ∈ C.V cfg.rd := by
    rw [show u = evalFn (c.elem.basis cfg.rd) a from funext ha]
    exact evalFn_mem C cfg.rd a
  have hg : ({ toElem := m.face q.1, normal := q.2 } : Face P K) ∈ m.faces c := List.mem_map_of_mem hq
  have hm := hR.massFace _ hg
  have hsz := hR.size _ hg
  have h1 := hD.face_ge
  have h2 := hD.exactFace
  refine solve_unique hm (fun i hi => ?_) k (by rw [hsz]; exact hk)
  have e : ∀ di, 1 ≤ di → di ≤ 2 → app ((m.face q.1).basis cfg.fd).size
      (mass (m.face q.1) cfg.fd ((m.face q.1).basis cfg.fd)) (projectElem S (m.face q.1) cfg.fd u di) i =
      C.IF { toElem := m.face q.1, normal := q.2 } fun x => ((m.face q.1).basis cfg.fd).fn x i * u x := by
    intro di hd1 hd2
    rw [app_eval fun j _ => mass_eq ..]
    refine (projectElem_spec S (m.face q.1) cfg.fd di u hm hi).trans ?_
    exact face_quad C hg (n := cfg.fd + cfg.rd) (by omega) (by omega) (OnV.mul C (OnV.fb C hg hi) (OnV.of_mem C hu))
  exact (e 1 (by omega) (by omega)).trans (e 2 (by omega) (by omega)).symm

theorem loadVec_length (cfg : Config K) (c : DCell P K) (f : P → K) : (loadVec cfg c f).length = numCell cfg c := by
  simp [loadVec, numCell]

theorem topLeft_sym (S : Solver K) (ht : TensSym cfg.d (some cfg.tens)) (hD : Degrees cfg N) {m : DMesh P K}
    {c : DCell P K} {C : PolyCell cfg.d c.elem (m.faces c) N} (hR : Regular cfg c.elem (m.faces c) C) (i j) :
    topLeft (nc := numCell cfg c) (nf := numFace cfg c) (sized _ (operator S cfg m c).2) i j =
      topLeft (nc := numCell cfg c) (nf := numFace cfg c) (sized _ (operator S cfg m c).2) j i := by
  rw [operator_eq S hD]
  have h := dofs_eq (m := m) (c := c) hR.size
  exact op_sym C S ht hD hR (by rw [h]; exact (Fin.castAdd (numFace cfg c) i).2)
    (by rw [h]; exact (Fin.castAdd (numFace cfg c) j).2)

/-- What the loops do on one cell: the condensed system has the shape the assembler wants, its residual at the
interpolate are the moments of the normal flux, and the recovery of the interpolate from its faces is exact. -/
theorem cell_step (S : Solver K) (F : LDLT K) (ht : TensSym cfg.d (some cfg.tens)) (hD : Degrees cfg N) {m : DMesh P K}
    {f u : P → K} {gu : P → Nat → K} {c : DCell P K} (hP : PatchCell cfg m N f u gu c)
    (hS : CellSolvable S F cfg m c) :
    ∃ sc, condenseCell S F cfg m f c = .ok sc ∧ sc.fcs = c.fcs.map Prod.fst ∧ sc.lhs.rows = numFace cfg c ∧
      sc.lhs.cols = numFace cfg c ∧ sc.rhs.length = numFace cfg c ∧
      (∀ p q k, c.fcs[p]? = some q → k < cfg.fbs →
        (∑ j ∈ range (numFace cfg c), sc.lhs.entry (p * cfg.fbs + k) j *
          realSol S cfg m u c (numCell cfg c + j)) - sc.rhs.getD (p * cfg.fbs + k) 0 =
        fluxMoment cfg m gu q.1 q.2 k) ∧
      decondense F (numCell cfg c) (numFace cfg c) (sized _ (operator S cfg m c).2) (loadVec cfg c f)
        (fun i => realSol S cfg m u c (numCell cfg c + i)) = .ok fun i => realSol S cfg m u c i := by
  obtain ⟨C, hR, hE⟩ := hP
  have hI := real_isInterp S hD hR hE
  have hn := dofs_eq (m := m) (c := c) hR.size
  obtain ⟨r, hr, hx⟩ := condense_resid F (numCell cfg c) (numFace cfg c) (sized _ (operator S cfg m c).2)
    (loadVec cfg c f) (loadVec_length cfg c f) (topLeft_sym S ht hD hR) hS.1 hS.2
  obtain ⟨h1, h2⟩ := hx (fun i => realSol S cfg m u c i) (fun i => by
    rw [mulVec_sized, operator_eq S hD]
    have hcr := cell_row C S ht hD hR hE hI (i := i) i.2
    rw [hn] at hcr
    refine hcr.trans ?_
    have : i.1 < (c.elem.basis cfg.cd).size := i.2
    simp [loadVec, List.getD_eq_getElem?_getD, this])
  refine ⟨_, by unfold condenseCell; rw [hr, Outcome.bind_ok], rfl, rfl, rfl, by simp, ?_, h2⟩
  intro p q k hq hk
  have hp : p < c.fcs.length := (List.getElem?_eq_some_iff.1 hq).1
  have hlt : p * cfg.fbs + k < numFace cfg c := by
    have : (p + 1) * cfg.fbs ≤ c.fcs.length * cfg.fbs := Nat.mul_le_mul_right _ hp
    rw [Nat.add_mul] at this
    unfold numFace
    omega
  have hrow := h1 ⟨p * cfg.fbs + k, hlt⟩
  rw [mulVec_sized, operator_eq S hD] at hrow
  have hg : (m.faces c)[p]? = some { toElem := m.face q.1, normal := q.2 } := by rw [faces_get, hq]; rfl
  have hfr := face_row C S ht hD hR hE hI hg hk
  rw [hn] at hfr
  simp only [Fin.val_natAdd] at hrow
  rw [show numCell cfg c + (p * cfg.fbs + k) = (c.elem.basis cfg.cd).size + p * cfg.fbs + k by
    unfold numCell; ring, hfr] at hrow
  refine Eq.trans ?_ hrow
  congr 1
  · rw [Finset.sum_range]
    simp only [Matrix.mulVec, dotProduct]
    refine Finset.sum_congr rfl fun j _ => ?_
    rw [dif_pos (show p * cfg.fbs + k < numFace cfg c ∧ j.1 < numFace cfg c from ⟨hlt, j.2⟩)]
  · simp [List.getD_eq_getElem?_getD, hlt]

/-- The contribution of a cell to the residual of a face: the moments of the flux for its normals. -/
theorem cellResidual_eq {cfg : Config K} {m : DMesh P K} {gu : P → Nat → K} {c : DCell P K} {lhs : Nat → Nat → K}
    {rhs : List K} {x : Nat → K} {W : Nat → Nat → K}
    (hrow : ∀ p q k, c.fcs[p]? = some q → k < cfg.fbs →
      (∑ j ∈ range (numFace cfg c), lhs (p * cfg.fbs + k) j * x j) - rhs.getD (p * cfg.fbs + k) 0 =
        fluxMoment cfg m gu q.1 q.2 k)
    (hW : ∀ p q k, c.fcs[p]? = some q → k < cfg.fbs → x (p * cfg.fbs + k) = W q.1 k) {i k : Nat} (hk : k < cfg.fbs) :
    cellResidual cfg.fbs (c.fcs.map Prod.fst) lhs rhs W i k = fluxMoment cfg m gu i (cellNormal c i) k := by
  have hloc : ∀ p q, c.fcs[p]? = some q →
      localResidual cfg.fbs (c.fcs.map Prod.fst) lhs rhs W p k = fluxMoment cfg m gu q.1 q.2 k := by
    intro p q hq
    rw [← hrow p q k hq hk]
    unfold localResidual
    congr 1
    rw [numFace, Assembly.sum_blocks, List.length_map]
    refine sum_congr rfl fun p' hp' => sum_congr rfl fun l hl => ?_
    have hp' := mem_range.1 hp'
    have hq' : c.fcs[p']? = some c.fcs[p'] := List.getElem?_eq_getElem hp'
    rw [hW p' _ l hq' (mem_range.1 hl)]
    simp [List.getD_eq_getElem?_getD, hp']
  have hsum : ∀ l : List (Nat × (Nat → K)), ∀ R : Nat → K,
      (∀ p q, l[p]? = some q → R p = fluxMoment cfg m gu q.1 q.2 k) →
      (∑ p ∈ range l.length, if (l.map Prod.fst).getD p 0 = i then R p else 0) =
        fluxMoment cfg m gu i (fun k => (l.map fun p => if p.1 = i then p.2 k else 0).sum) k := by
    intro l
    induction l with
    | nil =>
      intro R _
      rw [fluxMoment_zero]
      · simp
      · intro c _; simp
    | cons a l ih =>
      intro R hR
      rw [List.length_cons, sum_range_succ']
      have := ih (fun p => R (p + 1)) (fun p q hq => hR (p + 1) q (by rw [List.getElem?_cons_succ]; exact hq))
      simp only [List.map_cons, List.getD_cons_succ, List.getD_cons_zero, List.sum_cons] at this ⊢
      rw [this, fluxMoment_add, add_comm]
      congr 1
      split_ifs with h
      · rw [hR 0 a (by simp), h]
      · rw [fluxMoment_zero]
        intro _ _
        rfl
  unfold cellResidual
  rw [List.length_map, hsum c.fcs _ hloc]
  rfl

end Verif.Lemmas.HhoSolver
