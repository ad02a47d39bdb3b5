import Mathlib.LinearAlgebra.Matrix.ToLin
import Verif.Lemmas.HhoSolverPos
import Verif.Lemmas.HhoSolverRun
/-!
Solvability of the condensed systems of the HHO diffusion solver.
-/
namespace Verif.Lemmas.HhoSolver
open Finset Matrix Verif.Hho Verif.HhoSolver Verif.Spec.Hho Verif.Spec.HhoSolver Verif.Lemmas.Hho LocalMatrix
open Verif.Condensation Verif.Spec Verif.Assembly

section
variable {K : Type} [CommRing K]

/-- The condensed matrix is the local matrix on vectors whose cell rows vanish. -/
theorem condense_form (F : LDLT K) (nc nf : Nat) (lhs : Matrix (Fin (nc + nf)) (Fin (nc + nf)) K) (rhs : List K)
    (hlen : rhs.length = nc) (hs : ∀ i j, topLeft lhs i j = topLeft lhs j i) (hu : IsUnit (topLeft lhs).det)
    (hok : F.success (topLeft lhs) = true) :
    ∃ r, condense F nc nf lhs rhs = .ok r ∧
      ∀ y : Fin nf → K, ∃ x : Fin (nc + nf) → K, (∀ i, x (Fin.natAdd nc i) = y i) ∧
        (∀ i : Fin nc, (lhs *ᵥ x) (Fin.castAdd nf i) = 0) ∧
        ∀ i : Fin nf, (lhs *ᵥ x) (Fin.natAdd nc i) = (r.AC *ᵥ y) i := by
  have hne : ¬ (rhs.length ≠ nc ∧ rhs.length ≠ nc + nf) := by omega
  refine ⟨_, by unfold condense; rw [if_neg hne]; simp only [hok, if_true]; rfl, ?_⟩
  intro y
  have h0 : F.solve (topLeft lhs) 0 = 0 := ((solve_iff F _ hs hu hok 0 0).1 (Matrix.mulVec_zero _)).symm
  obtain ⟨e1, e2⟩ := (block_elim F (topLeft lhs) (topRight lhs) (bottomLeft lhs) (bottomRight lhs) hs hu hok 0
    (F.solve (topLeft lhs) (0 - topRight lhs *ᵥ y))
    ((bottomRight lhs - bottomLeft lhs * F.solveMat (topLeft lhs) (topRight lhs)) *ᵥ y) y).2 ⟨by
      rw [h0, Matrix.mulVec_zero, sub_zero], rfl⟩
  have hf := (full_iff lhs (join 0 ((bottomRight lhs - bottomLeft lhs * F.solveMat (topLeft lhs) (topRight lhs)) *ᵥ y))
    (join (F.solve (topLeft lhs) (0 - topRight lhs *ᵥ y)) y)).2 ⟨by
      simp only [join, Fin.append_left, Fin.append_right]; exact e1, by
      simp only [join, Fin.append_left, Fin.append_right]; exact e2⟩
  refine ⟨join (F.solve (topLeft lhs) (0 - topRight lhs *ᵥ y)) y, fun i => by simp [join], fun i => ?_, fun i => ?_⟩
  · rw [hf]; simp [join]
  · rw [hf]; simp [join]

end

section
variable {K P : Type} [Field K]

theorem form_fin (n : Nat) (A : Hho.Mat K) (v : Nat → K) :
    form n A v v = ∑ i : Fin n, v i * (sized n A *ᵥ fun j : Fin n => v j) i := by
  unfold form
  rw [Finset.sum_range]
  exact Finset.sum_congr rfl fun i _ => by rw [mulVec_sized]

/-- Extension of a vector by zero. -/
def ext0 {n : Nat} (x : Fin n → K) (j : Nat) : K := if h : j < n then x ⟨j, h⟩ else 0

theorem ext0_fin {n : Nat} (x : Fin n → K) (i : Fin n) : ext0 x i = x i := by simp [ext0]

theorem form_topLeft (nc nf : Nat) (A : Hho.Mat K) (x : Fin nc → K) :
    form (nc + nf) A (ext0 x) (ext0 x) = ∑ i, x i * ∑ j, topLeft (nf := nf) (sized (nc + nf) A) i j * x j := by
  rw [form_fin, Fin.sum_univ_add]
  have h2 : ∀ i : Fin nf, ext0 x (Fin.natAdd nc i : Fin (nc + nf)) = 0 := fun i => by simp [ext0]
  have h1 : ∀ i : Fin nc, ext0 x (Fin.castAdd nf i : Fin (nc + nf)) = x i := fun i => by simp [ext0]
  rw [Finset.sum_eq_zero (s := univ) (f := fun i : Fin nf => _) fun i _ => by rw [h2, zero_mul], add_zero]
  refine Finset.sum_congr rfl fun i _ => ?_
  rw [h1]
  congr 1
  simp only [Matrix.mulVec, dotProduct]
  rw [Fin.sum_univ_add, Finset.sum_eq_zero (s := univ) (f := fun i : Fin nf => _) fun i _ => by rw [h2, mul_zero],
    add_zero]
  exact Finset.sum_congr rfl fun j _ => by rw [h1]; rfl

/-- Sum over the faces of the mesh against the contributions of a cell. -/
theorem sum_faces (b n : Nat) (fcs : List Nat) (hf : ∀ i ∈ fcs, i < n) (R z : Nat → Nat → K) :
    ∑ i ∈ range n, ∑ k ∈ range b, z i k * (∑ p ∈ range fcs.length, if fcs.getD p 0 = i then R p k else 0) =
      ∑ p ∈ range fcs.length, ∑ k ∈ range b, z (fcs.getD p 0) k * R p k := by
  have h1 : ∀ i k, z i k * (∑ p ∈ range fcs.length, if fcs.getD p 0 = i then R p k else 0) =
      ∑ p ∈ range fcs.length, if fcs.getD p 0 = i then z (fcs.getD p 0) k * R p k else 0 := by
    intro i k
    rw [mul_sum]
    refine sum_congr rfl fun p _ => ?_
    split_ifs with h
    · rw [h]
    · rw [mul_zero]
  simp only [h1]
  have h2 : ∀ i ∈ range n, (∑ k ∈ range b, ∑ p ∈ range fcs.length,
      if fcs.getD p 0 = i then z (fcs.getD p 0) k * R p k else 0) =
      ∑ p ∈ range fcs.length, if fcs.getD p 0 = i then ∑ k ∈ range b, z (fcs.getD p 0) k * R p k else 0 := by
    intro i _
    rw [sum_comm]
    refine sum_congr rfl fun p _ => ?_
    split_ifs
    · rfl
    · exact sum_const_zero
  rw [sum_congr rfl h2, sum_comm]
  refine sum_congr rfl fun p hp => ?_
  have hp := mem_range.1 hp
  have : fcs.getD p 0 ∈ range n := mem_range.2 (hf _ (by
    rw [List.getD_eq_getElem?_getD, List.getElem?_eq_getElem hp]
    exact List.getElem_mem hp))
  rw [sum_ite_eq, if_pos this]

theorem sum_cellResidual (b n : Nat) (fcs : List Nat) (hf : ∀ i ∈ fcs, i < n) (lhs : Nat → Nat → K) (z : Nat → Nat → K) :
    ∑ i ∈ range n, ∑ k ∈ range b, z i k * cellResidual b fcs lhs [] z i k =
      ∑ p ∈ range fcs.length, ∑ k ∈ range b, z (fcs.getD p 0) k * localResidual b fcs lhs [] z p k :=
  sum_faces b n fcs hf (localResidual b fcs lhs [] z) z

/-- The residual is affine. -/
theorem cellResidual_sub (b : Nat) (fcs : List Nat) (lhs : Nat → Nat → K) (rhs : List K) {w w' z : Nat → Nat → K}
    (h : ∀ i l, w i l - w' i l = z i l) (f k : Nat) :
    cellResidual b fcs lhs rhs w f k - cellResidual b fcs lhs rhs w' f k = cellResidual b fcs lhs [] z f k := by
  unfold cellResidual
  rw [← sum_sub_distrib]
  refine sum_congr rfl fun p _ => ?_
  split_ifs
  · unfold localResidual
    simp only [← h, mul_sub, sum_sub_distrib, List.getD_nil]
    ring
  · ring

theorem list_sum_finset {ι : Type} (s : Finset Nat) (l : List ι) (g : ι → Nat → K) :
    (l.map fun c => ∑ i ∈ s, g c i).sum = ∑ i ∈ s, (l.map fun c => g c i).sum := by
  induction l with
  | nil => simp
  | cons a l ih => simp only [List.map_cons, List.sum_cons, ih, sum_add_distrib]

theorem list_sum_sub {ι : Type} (l : List ι) (a b : ι → K) :
    (l.map a).sum - (l.map b).sum = (l.map fun c => a c - b c).sum := by
  induction l with
  | nil => simp
  | cons c l ih => simp only [List.map_cons, List.sum_cons, ← ih]; ring

theorem list_sum_mul {ι : Type} (a : K) (l : List ι) (g : ι → K) : (l.map fun c => a * g c).sum = a * (l.map g).sum := by
  induction l with
  | nil => simp
  | cons c l ih => simp only [List.map_cons, List.sum_cons, ih, mul_add]

end

theorem list_sum_zero {K ι : Type} [Field K] [LinearOrder K] [IsStrictOrderedRing K] {l : List ι} {g : ι → K}
    (h : ∀ c ∈ l, 0 ≤ g c) (hz : (l.map g).sum = 0) : ∀ c ∈ l, g c = 0 := by
  induction l with
  | nil => intro c hc; cases hc
  | cons a l ih =>
    have h1 := h a List.mem_cons_self
    have h2 : 0 ≤ (l.map g).sum := List.sum_nonneg fun x hx => by
      obtain ⟨c, hc, rfl⟩ := List.mem_map.1 hx
      exact h c (List.mem_cons_of_mem _ hc)
    simp only [List.map_cons, List.sum_cons] at hz
    intro c hc
    rcases List.mem_cons.1 hc with rfl | hc
    · linarith
    · exact ih (fun c hc => h c (List.mem_cons_of_mem _ hc)) (by linarith) c hc

variable {K P : Type} [Field K] [LinearOrder K] [IsStrictOrderedRing K] {cfg : Config K} {N : Nat}

omit [Field K] [LinearOrder K] [IsStrictOrderedRing K] in
theorem anchored_face {m : DMesh P K} {c : DCell P K} (h : Anchored m c) : ∃ q, q ∈ c.fcs := by
  cases h with
  | boundary hq _ => exact ⟨_, hq⟩
  | step _ _ hq _ _ => exact ⟨_, hq⟩

theorem cell_zero (S : Solver K) (ht : TensSym cfg.d (some cfg.tens)) (hT : TensNonneg cfg) (hD : Degrees cfg N)
    {m : DMesh P K} {c : DCell P K} {C : PolyCell cfg.d c.elem (m.faces c) N} (hR : Regular cfg c.elem (m.faces c) C)
    (hP : Positive cfg c.elem (m.faces c)) {v : Nat → K}
    (h : form (numCell cfg c + numFace cfg c) (operator S cfg m c).2 v v = 0) :
    (∀ j < numCell cfg c, 0 < j → v j = 0) ∧
    ∀ p q, c.fcs[p]? = some q → ∀ i < cfg.fbs, app cfg.fbs (mass (m.face q.1) cfg.fd ((m.face q.1).basis cfg.fd))
      (seg (numCell cfg c + p * cfg.fbs) v) i = v 0 * ones cfg (m.face q.1) i := by
  rw [operator_eq S hD, ← dofs_eq (m := m) hR.size] at h
  obtain ⟨h1, h2⟩ := op_kernel C S ht hT hD hR hP h
  refine ⟨h1, fun p q hq i hi => ?_⟩
  have hg : (m.faces c)[p]? = some { toElem := m.face q.1, normal := q.2 } := by rw [faces_get, hq]; rfl
  have := faceAll_get hR.size h2 hg
  rw [hR.size _ (List.mem_of_getElem? hg)] at this
  exact this i hi

theorem cell_nonneg (S : Solver K) (ht : TensSym cfg.d (some cfg.tens)) (hT : TensNonneg cfg) (hD : Degrees cfg N)
    {m : DMesh P K} {c : DCell P K} {C : PolyCell cfg.d c.elem (m.faces c) N} (hR : Regular cfg c.elem (m.faces c) C)
    (hP : Positive cfg c.elem (m.faces c)) (v : Nat → K) :
    0 ≤ form (numCell cfg c + numFace cfg c) (operator S cfg m c).2 v v := by
  rw [operator_eq S hD, ← dofs_eq (m := m) hR.size]
  exact op_nonneg C S ht hT hD hR hP v

omit [Field K] [LinearOrder K] [IsStrictOrderedRing K] in
theorem mem_faces {m : DMesh P K} {c : DCell P K} {q : Nat × (Nat → K)} (hq : q ∈ c.fcs) :
    ({ toElem := m.face q.1, normal := q.2 } : Face P K) ∈ m.faces c := List.mem_map_of_mem hq

/-- Cell blocks are positive definite. -/
theorem topLeft_pos (S : Solver K) (ht : TensSym cfg.d (some cfg.tens)) (hT : TensNonneg cfg) (hD : Degrees cfg N)
    {m : DMesh P K} {c : DCell P K} {C : PolyCell cfg.d c.elem (m.faces c) N} (hR : Regular cfg c.elem (m.faces c) C)
    (hP : Positive cfg c.elem (m.faces c)) (hf : ∃ q, q ∈ c.fcs) (x : Fin (numCell cfg c) → K) (hx : x ≠ 0) :
    0 < ∑ i, x i * ∑ j, topLeft (nc := numCell cfg c) (nf := numFace cfg c) (sized _ (operator S cfg m c).2) i j * x j := by
  rw [← form_topLeft]
  refine lt_of_le_of_ne (cell_nonneg S ht hT hD hR hP _) fun h => hx ?_
  obtain ⟨h1, h2⟩ := cell_zero S ht hT hD hR hP h.symm
  obtain ⟨q, hq⟩ := hf
  obtain ⟨p, hp⟩ := List.getElem?_of_mem hq
  have h0 : ext0 x 0 = 0 := ones_ne C hD hP (mem_faces hq) fun i hi => by
    rw [hR.size _ (mem_faces hq)] at hi
    rw [← h2 p q hp i hi]
    refine sum_eq_zero fun j _ => ?_
    rw [show seg (numCell cfg c + p * cfg.fbs) (ext0 x) j = 0 by
      unfold seg ext0
      rw [dif_neg (by omega)], mul_zero]
  funext i
  rw [← ext0_fin x i]
  rcases Nat.eq_zero_or_pos i.1 with hi | hi
  · rw [hi]; exact h0
  · exact h1 i i.2 hi

theorem cellSolvable_of (S : Solver K) (F : LDLT K) (hF : AcceptsSPD F) (ht : TensSym cfg.d (some cfg.tens))
    (hT : TensNonneg cfg) (hD : Degrees cfg N) {m : DMesh P K} (hM : SolvableMesh cfg m N) {c : DCell P K}
    (hc : c ∈ m.cells) : CellSolvable S F cfg m c := by
  obtain ⟨C, hR⟩ := hM.cell c hc
  have hpos := topLeft_pos S ht hT hD hR (hM.positive c hc) (anchored_face (hM.anchored c hc))
  refine ⟨?_, hF _ _ (topLeft_sym S ht hD hR) hpos⟩
  rw [← Matrix.isUnit_iff_isUnit_det, ← Matrix.mulVec_injective_iff_isUnit]
  intro x y e
  by_contra hne
  have := hpos (x - y) (sub_ne_zero.2 hne)
  have hz : ∀ i, (∑ j, topLeft (nc := numCell cfg c) (nf := numFace cfg c) (sized _ (operator S cfg m c).2) i j *
      (x - y) j) = 0 := by
    intro i
    have := congrFun e i
    simp only [Matrix.mulVec, dotProduct] at this
    simp only [Pi.sub_apply, mul_sub, Finset.sum_sub_distrib, this, sub_self]
  simp only [hz, mul_zero, Finset.sum_const_zero, lt_self_iff_false] at this

/-- The condensed cell: its shape, and its matrix as the local matrix on an extension of the face values. -/
theorem cond_shape (S : Solver K) (F : LDLT K) (ht : TensSym cfg.d (some cfg.tens)) (hD : Degrees cfg N)
    {m : DMesh P K} (f : P → K) {c : DCell P K} {C : PolyCell cfg.d c.elem (m.faces c) N}
    (hR : Regular cfg c.elem (m.faces c) C) (hS : CellSolvable S F cfg m c) :
    ∃ sc, condenseCell S F cfg m f c = .ok sc ∧ sc.fcs = c.fcs.map Prod.fst ∧ sc.lhs.rows = numFace cfg c ∧
      sc.lhs.cols = numFace cfg c ∧ sc.rhs.length = numFace cfg c ∧
      ∀ z : Nat → Nat → K, ∃ v : Nat → K,
        (∀ p q, c.fcs[p]? = some q → ∀ k < cfg.fbs, v (numCell cfg c + p * cfg.fbs + k) = z q.1 k) ∧
        (∑ p ∈ range sc.fcs.length, ∑ k ∈ range cfg.fbs, z (sc.fcs.getD p 0) k *
          localResidual cfg.fbs sc.fcs sc.lhs.entry [] z p k) =
          form (numCell cfg c + numFace cfg c) (operator S cfg m c).2 v v := by
  obtain ⟨r, hr, hx⟩ := condense_form F (numCell cfg c) (numFace cfg c) (sized _ (operator S cfg m c).2)
    (loadVec cfg c f) (loadVec_length cfg c f) (topLeft_sym S ht hD hR) hS.1 hS.2
  refine ⟨_, by unfold condenseCell; rw [hr, Outcome.bind_ok], rfl, rfl, rfl, by simp, fun z => ?_⟩
  let y : Nat → K := fun j => z ((c.fcs.map Prod.fst).getD (j / cfg.fbs) 0) (j % cfg.fbs)
  obtain ⟨x, x1, x2, x3⟩ := hx fun i => y i
  have hy : ∀ p k, k < cfg.fbs → y (p * cfg.fbs + k) = z ((c.fcs.map Prod.fst).getD p 0) k := by
    intro p k hk
    simp only [y]
    rw [Nat.mul_comm p, Nat.mul_add_div (by omega), Nat.div_eq_of_lt hk, Nat.mul_add_mod, Nat.mod_eq_of_lt hk, add_zero]
  have hlt : ∀ p < c.fcs.length, ∀ k < cfg.fbs, p * cfg.fbs + k < numFace cfg c := by
    intro p hp k hk
    have : (p + 1) * cfg.fbs ≤ c.fcs.length * cfg.fbs := Nat.mul_le_mul_right _ hp
    rw [Nat.add_mul] at this
    unfold numFace
    omega
  refine ⟨ext0 x, fun p q hq k hk => ?_, ?_⟩
  · have hp : p < c.fcs.length := (List.getElem?_eq_some_iff.1 hq).1
    have := x1 ⟨p * cfg.fbs + k, hlt p hp k hk⟩
    rw [← ext0_fin x] at this
    simp only [Fin.val_natAdd] at this
    rw [Nat.add_assoc, this, hy p k hk, List.getD_eq_getElem?_getD, List.getElem?_map, hq]
    rfl
  · rw [form_fin, Fin.sum_univ_add]
    have he : (fun j : Fin (numCell cfg c + numFace cfg c) => ext0 x j) = x := funext fun j => ext0_fin x j
    rw [he, Finset.sum_eq_zero (s := univ) (f := fun i : Fin (numCell cfg c) => _) fun i _ => by rw [x2, mul_zero],
      zero_add]
    have hsum : ∀ i : Fin (numFace cfg c), ext0 x (Fin.natAdd (numCell cfg c) i : Fin _) *
        (sized _ (operator S cfg m c).2 *ᵥ x) (Fin.natAdd (numCell cfg c) i) = y i * (r.AC *ᵥ fun i => y i) i := by
      intro i
      rw [x3, ext0_fin, x1]
    rw [Finset.sum_congr rfl fun i _ => hsum i]
    have hrow : ∀ i : Fin (numFace cfg c), y i * (r.AC *ᵥ fun i => y i) i =
        (fun i : Nat => y i * ∑ j ∈ range (numFace cfg c), (if h : i < numFace cfg c ∧ j < numFace cfg c then
        r.AC ⟨i, h.1⟩ ⟨j, h.2⟩ else 0) * y j) i := by
      intro i
      simp only [Matrix.mulVec, dotProduct]
      rw [Finset.sum_range]
      congr 1
      refine Finset.sum_congr rfl fun j _ => ?_
      rw [dif_pos (show i.1 < numFace cfg c ∧ j.1 < numFace cfg c from ⟨i.2, j.2⟩)]
    rw [Finset.sum_congr rfl fun i _ => hrow i, ← Finset.sum_range (n := numFace cfg c) (fun i : Nat => y i *
      ∑ j ∈ range (numFace cfg c), (if h : i < numFace cfg c ∧ j < numFace cfg c then
        r.AC ⟨i, h.1⟩ ⟨j, h.2⟩ else 0) * y j)]
    refine Eq.trans ?_ (Assembly.sum_blocks c.fcs.length cfg.fbs _).symm
    simp only [List.length_map]
    refine sum_congr rfl fun p hp => sum_congr rfl fun k hk => ?_
    rw [hy p k (mem_range.1 hk)]
    congr 1
    unfold localResidual
    rw [List.getD_nil, sub_zero, List.length_map]
    refine Eq.trans ?_ (Assembly.sum_blocks c.fcs.length cfg.fbs _).symm
    refine sum_congr rfl fun p' _ => sum_congr rfl fun k' hk' => ?_
    rw [hy p' k' (mem_range.1 hk')]

/-- Face values that are constants on the cells linked to the boundary, zero on the boundary, are zero. -/
theorem anchored_zero (hD : Degrees cfg N) {m : DMesh P K} (hM : SolvableMesh cfg m N) {z : Nat → Nat → K}
    (hb : ∀ i k, m.bnd[i]? = some true → z i k = 0)
    (hk : ∀ c ∈ m.cells, ∃ κ : K, ∀ q ∈ c.fcs, ∀ i < cfg.fbs, app cfg.fbs
      (mass (m.face q.1) cfg.fd ((m.face q.1).basis cfg.fd)) (z q.1) i = κ * ones cfg (m.face q.1) i)
    {c : DCell P K} (ha : Anchored m c) : c ∈ m.cells → ∀ κ : K, (∀ q ∈ c.fcs, ∀ i < cfg.fbs, app cfg.fbs
      (mass (m.face q.1) cfg.fd ((m.face q.1).basis cfg.fd)) (z q.1) i = κ * ones cfg (m.face q.1) i) → κ = 0 := by
  induction ha with
  | boundary hq hbd =>
    intro hc κ hκ
    obtain ⟨C, hR⟩ := hM.cell _ hc
    refine ones_ne C hD (hM.positive _ hc) (mem_faces hq) fun i hi => ?_
    rw [hR.size _ (mem_faces hq)] at hi
    rw [← hκ _ hq i hi]
    exact sum_eq_zero fun j _ => by rw [hb _ _ hbd, mul_zero]
  | step hc' _ hq hq' e ih =>
    intro hc κ hκ
    obtain ⟨C, hR⟩ := hM.cell _ hc
    obtain ⟨κ', hκ'⟩ := hk _ hc'
    have h0 := ih hc' κ' hκ'
    refine ones_ne C hD (hM.positive _ hc) (mem_faces hq) fun i hi => ?_
    rw [hR.size _ (mem_faces hq)] at hi
    have h1 := hκ _ hq i hi
    have h2 := hκ' _ hq' i hi
    rw [← e, h0, zero_mul, h1] at h2
    exact h2

/-- The global system of the solver is non-singular. -/
theorem global_nonsing (S : Solver K) (F : LDLT K) (hF : AcceptsSPD F) (ht : TensSym cfg.d (some cfg.tens))
    (hT : TensNonneg cfg) (hD : Degrees cfg N) {m : DMesh P K} (hM : SolvableMesh cfg m N) (f u : P → K) :
    ∃ s s', construct m.bnd cfg.fbs = .ok s ∧ assembleLoop S F cfg m f u m.cells s = .ok s' ∧
      Nonsing s'.systemSize (toMat s'.triplets) := by
  have hS := fun c (hc : c ∈ m.cells) => cellSolvable_of S F hF ht hT hD hM hc
  have hcond : ∀ c ∈ m.cells, condenseCell S F cfg m f c = .ok (condOf S F cfg m f c) := by
    intro c hc
    obtain ⟨C, hR⟩ := hM.cell c hc
    obtain ⟨sc, h, _⟩ := cond_shape S F ht hD f hR (hS c hc)
    rw [condOf_eq h, h]
  have hcell : ∀ sc ∈ m.cells.map (condOf S F cfg m f), (∀ i ∈ sc.fcs, i < m.bnd.length) ∧
      sc.lhs.rows = sc.fcs.length * cfg.fbs ∧ sc.lhs.cols = sc.fcs.length * cfg.fbs ∧
      sc.rhs.length = sc.fcs.length * cfg.fbs := by
    intro sc hsc
    obtain ⟨c, hc, rfl⟩ := List.mem_map.1 hsc
    obtain ⟨C, hR⟩ := hM.cell c hc
    obtain ⟨sc, h, h1, h2, h3, h4, _⟩ := cond_shape S F ht hD f hR (hS c hc)
    rw [condOf_eq h, h1, List.length_map]
    refine ⟨fun i hi => ?_, h2, h3, h4⟩
    obtain ⟨q, hq, rfl⟩ := List.mem_map.1 hi
    exact hM.range c hc q hq
  obtain ⟨s, s', k1, k2, hsz, _, _, kres⟩ := Props.Assembly.c22_residual m.bnd cfg.fbs (dirichletData S cfg m u)
    (m.cells.map (condOf S F cfg m f)) hcell
  obtain ⟨t, l1, l2, _⟩ := Props.Assembly.c21_ranges_partial (R := K) m.bnd cfg.fbs
  obtain ⟨t', n1, ldir, lfbs, hg, _⟩ := construct_spec (R := K) m.bnd cfg.fbs
  rw [k1] at l1 n1
  cases l1; cases n1
  have hloop : assembleLoop S F cfg m f u m.cells s = .ok s' := by
    rw [assembleLoop_eq S F cfg m f u (condOf S F cfg m f) m.cells hcond, k2]
  refine ⟨s, s', k1, hloop, fun x hx => ?_⟩
  let z : Nat → Nat → K := faceValue m.bnd cfg.fbs (fun _ _ => 0) x
  have hzb : ∀ i k, m.bnd[i]? = some true → z i k = 0 := fun i k h => by simp only [z, faceValue]; rw [if_pos h]
  have hrange : ∀ i k, m.bnd[i]? = some false → k < cfg.fbs → unknownPos m.bnd i * cfg.fbs + k < s'.systemSize := by
    intro i k hi hk
    have hlt := unknownPos_lt m.bnd i hi
    have : (unknownPos m.bnd i + 1) * cfg.fbs ≤ m.bnd.count false * cfg.fbs := Nat.mul_le_mul_right _ hlt
    rw [Nat.add_mul] at this
    rw [hsz, Nat.mul_comm cfg.fbs]
    omega
  -- the residual of the homogeneous problem
  have hres : ∀ i k, m.bnd[i]? = some false → k < cfg.fbs →
      (m.cells.map fun c => cellResidual cfg.fbs (condOf S F cfg m f c).fcs (condOf S F cfg m f c).lhs.entry [] z i k).sum
        = 0 := by
    intro i k hi hk
    have r1 := kres x i k hi hk
    have r0 := kres (fun _ => 0) i k hi hk
    rw [List.map_map] at r1 r0
    have e : (m.cells.map fun c => cellResidual cfg.fbs (condOf S F cfg m f c).fcs (condOf S F cfg m f c).lhs.entry [] z
        i k).sum = (m.cells.map ((fun c => cellResidual cfg.fbs c.fcs c.lhs.entry c.rhs
          (faceValue m.bnd cfg.fbs (dirichletData S cfg m u) x) i k) ∘ condOf S F cfg m f)).sum -
        (m.cells.map ((fun c => cellResidual cfg.fbs c.fcs c.lhs.entry c.rhs
          (faceValue m.bnd cfg.fbs (dirichletData S cfg m u) fun _ => 0) i k) ∘ condOf S F cfg m f)).sum := by
      rw [list_sum_sub]
      congr 1
      refine List.map_congr_left fun c _ => ?_
      refine (cellResidual_sub cfg.fbs _ _ _ (fun i l => ?_) i k).symm
      simp only [z, faceValue]
      split_ifs
      · exact sub_self _
      · exact sub_zero _
    rw [e, ← r1, ← r0, hx _ (hrange i k hi hk)]
    simp
  -- the energy
  have hen : (m.cells.map fun c => ∑ i ∈ range m.bnd.length, ∑ k ∈ range cfg.fbs, z i k *
      cellResidual cfg.fbs (condOf S F cfg m f c).fcs (condOf S F cfg m f c).lhs.entry [] z i k).sum = 0 := by
    rw [list_sum_finset]
    refine sum_eq_zero fun i hi => ?_
    rw [list_sum_finset]
    refine sum_eq_zero fun k hk => ?_
    rw [list_sum_mul]
    rcases bnd_cases (mem_range.1 hi) with hb | hb
    · rw [hzb i k hb, zero_mul]
    · rw [hres i k hb (mem_range.1 hk), mul_zero]
  have hform : ∀ c ∈ m.cells, ∃ v : Nat → K,
      (∀ p q, c.fcs[p]? = some q → ∀ k < cfg.fbs, v (numCell cfg c + p * cfg.fbs + k) = z q.1 k) ∧
      (∑ i ∈ range m.bnd.length, ∑ k ∈ range cfg.fbs, z i k *
        cellResidual cfg.fbs (condOf S F cfg m f c).fcs (condOf S F cfg m f c).lhs.entry [] z i k) =
        form (numCell cfg c + numFace cfg c) (operator S cfg m c).2 v v := by
    intro c hc
    obtain ⟨C, hR⟩ := hM.cell c hc
    obtain ⟨sc, h, _, _, _, _, hv⟩ := cond_shape S F ht hD f hR (hS c hc)
    obtain ⟨v, v1, v2⟩ := hv z
    refine ⟨v, v1, ?_⟩
    rw [sum_cellResidual cfg.fbs m.bnd.length _ ((hcell _ (List.mem_map_of_mem hc)).1), condOf_eq h]
    exact v2
  have hzero := list_sum_zero (fun c hc => by
    obtain ⟨v, _, e⟩ := hform c hc
    obtain ⟨C, hR⟩ := hM.cell c hc
    rw [e]
    exact cell_nonneg S ht hT hD hR (hM.positive c hc) v) hen
  have hk : ∀ c ∈ m.cells, ∃ κ : K, ∀ q ∈ c.fcs, ∀ i < cfg.fbs, app cfg.fbs
      (mass (m.face q.1) cfg.fd ((m.face q.1).basis cfg.fd)) (z q.1) i = κ * ones cfg (m.face q.1) i := by
    intro c hc
    obtain ⟨v, v1, e⟩ := hform c hc
    obtain ⟨C, hR⟩ := hM.cell c hc
    have hz := hzero c hc
    rw [e] at hz
    obtain ⟨_, h2⟩ := cell_zero S ht hT hD hR (hM.positive c hc) hz
    refine ⟨v 0, fun q hq i hi => ?_⟩
    obtain ⟨p, hp⟩ := List.getElem?_of_mem hq
    rw [← h2 p q hp i hi]
    refine sum_congr rfl fun j hj => ?_
    rw [show seg (numCell cfg c + p * cfg.fbs) v j = z q.1 j from v1 p q hp j (mem_range.1 hj)]
  have hz0 : ∀ c ∈ m.cells, ∀ q ∈ c.fcs, ∀ k < cfg.fbs, z q.1 k = 0 := by
    intro c hc q hq
    obtain ⟨κ, hκ⟩ := hk c hc
    obtain ⟨C, hR⟩ := hM.cell c hc
    have h0 := anchored_zero hD hM hzb hk (hM.anchored c hc) hc κ hκ
    have hm := hR.massFace _ (mem_faces (m := m) hq)
    rw [hR.size _ (mem_faces hq)] at hm
    exact hm (z q.1) fun i hi => by
      have := hκ q hq i hi
      rw [h0, zero_mul] at this
      exact this
  intro g hgs
  have hgs' : g < s.systemSize := by rw [hg.size, ldir, lfbs, ← hsz]; exact hgs
  rw [l2] at hgs'
  obtain ⟨i, p, k, hi, hp, hk', rfl⟩ := hgs'
  have hcp := hg.cpos i (by rw [ldir]; exact hi)
  rw [hcp] at hp
  cases hp
  obtain ⟨c, hc, q, hq, rfl⟩ := hM.used i hi
  have := hz0 c hc q hq k hk'
  simp only [z, faceValue] at this
  rw [if_neg (by rw [hi]; simp)] at this
  rw [ldir]
  exact this

end Verif.Lemmas.HhoSolver
