import Verif.Lemmas.Slapl
import Verif.Props.HhoLaplacian
import Verif.Props.HhoStab
/-!
C112: reconstruction and reduction of the new HHO interface. C113: its stabilizations.
-/
namespace Verif.Props.Slapl
open Finset Verif.Hho Verif.Slapl Verif.Spec.Hho Verif.Lemmas.Hho Verif.Lemmas.Slapl LocalMatrix

variable {K P : Type} [Field K] {d N : Nat} {cell : Elem P K} {faces : List (Face P K)}

/-- `local_operator` with a cell degree up to the reconstruction degree returns matrices `R`, `A` with: `r = R û` solves
`(∇w, ∇r)_T = (∇w, ∇u_T)_T + Σ_F (∇w·n, u_F - u_T)_F` for every basis function `w` but the constant, it is the
reconstruction of the old interface, and `A` is the symmetric energy form of `r`. -/
theorem c112_operator (C : PolyCell d cell faces N) (hnest : Nested cell) (S : Solver K) {di : DegreeInfo}
    (hcd : di.cell ≤ di.reco) (hN : 2 * di.reco ≤ N) (hNf : di.face + di.reco ≤ N)
    (hn : Nonsing ((cell.basis di.reco).size - 1) (lapLhs d none (cell.basis di.reco) di.reco cell)) :
    ∃ R A, localOperator d S di cell faces = .ok (R, A) ∧
      let n := (cell.basis di.cell).size + facesDofs (uniform di.face faces)
      let L := laplacian d none false S di.reco di.cell di.face cell faces
      (∀ u i, i + 1 < (cell.basis di.reco).size →
        C.IT (fun x => dot d (rflux d none (cell.basis di.reco) x i)
            (evalGradTail (cell.basis di.reco) (app n R u) x)) =
          C.IT (fun x => dot d (rflux d none (cell.basis di.reco) x i) (evalGrad (cell.basis di.cell) u x)) +
          faceSum (fun f k o => C.IF f fun x => fluxN d none (cell.basis di.reco) f.normal x i *
            (evalFn (f.basis k) (seg o u) x - evalFn (cell.basis di.cell) u x)) (uniform di.face faces)
            (cell.basis di.cell).size) ∧
      (∀ u, ∀ j < (cell.basis di.reco).size - 1, app n R u j = app n L.1 u j) ∧
      (∀ v u, form n A v u = C.IT fun x => dot d (evalGradTail (cell.basis di.reco) (app n R v) x)
        (evalGradTail (cell.basis di.reco) (app n R u) x)) ∧
      (∀ v u, form n A v u = form n A u v) ∧ ∀ v u, form n A v u = form n L.2 v u := by
  have hsz := (hnest di.cell di.reco hcd).1
  refine ⟨operMat d S di cell faces, operData' d S di cell faces,
    localOperator_ok S (C.cell_pos _) hsz, ?_⟩
  intro n L
  have hrel : ∀ u i, i + 1 < (cell.basis di.reco).size →
        C.IT (fun x => dot d (rflux d none (cell.basis di.reco) x i)
            (evalGradTail (cell.basis di.reco) (app n (operMat d S di cell faces) u) x)) =
          C.IT (fun x => dot d (rflux d none (cell.basis di.reco) x i) (evalGrad (cell.basis di.cell) u x)) +
          faceSum (fun f k o => C.IF f fun x => fluxN d none (cell.basis di.reco) f.normal x i *
            (evalFn (f.basis k) (seg o u) x - evalFn (cell.basis di.cell) u x)) (uniform di.face faces)
            (cell.basis di.cell).size := by
    intro u i hi
    rw [← lapLhs_exact C hN _ hi, app_operMat S n hn u (by omega), app_operRhs hnest di hcd u hi]
    congr 1
    · refine cell_quad C (n := di.reco - 1 + (di.cell - 1)) (by omega) (by omega) ?_
      exact dot_mem C (fun c hc => rflux_mem C di.reco hi hc) fun c hc => evalGrad_mem C di.cell u hc
    · refine faceSum_congr (fun f k off hm => ?_) _
      obtain ⟨hf, rfl⟩ := mem_uniform hm
      rw [face_quad C hf (n := di.reco - 1 + di.face) (by omega) hNf
          (OnV.mul C (OnV.of_mem C (fluxN_mem C di.reco f.normal hi)) (OnV.evalFb C hf di.face _)),
        face_quad C hf (n := di.reco - 1 + di.cell) (by omega) (by omega)
          (OnV.mul C (OnV.of_mem C (fluxN_mem C di.reco f.normal hi)) (OnV.of_mem C (evalFn_mem C di.cell u))),
        ← IF_sub]
      congr 1
      funext x
      ring
  have hsame : ∀ u, ∀ j < (cell.basis di.reco).size - 1,
      app n (operMat d S di cell faces) u j = app n L.1 u j := by
    intro u
    refine solve_unique hn fun i hi => ?_
    have hi' : i + 1 < (cell.basis di.reco).size := by omega
    rw [lapLhs_exact C hN _ hi', lapLhs_exact C hN _ hi', hrel u i hi']
    exact (HhoLaplacian.c82_relation C S (tens := none) trivial hcd hN (by omega) hn u hi').symm
  have hform := form_operData S (faces := faces) n hn
  refine ⟨hrel, hsame, fun v u => ?_, fun v u => ?_, fun v u => ?_⟩
  · rw [hform v u]
    exact cell_quad C (n := di.reco - 1 + (di.reco - 1)) (by omega) (by omega)
      (dot_mem C (fun c hc => evalGradTail_mem C di.reco _ hc) fun c hc => evalGradTail_mem C di.reco _ hc)
  · rw [hform v u, hform u v]
    exact quad_congr fun q _ => dot_comm d _ _
  · rw [hform v u]
    refine Eq.trans ?_ (HhoLaplacian.c82_energy S (tens := none) trivial false (cell.basis di.reco) di.reco di.cell
      di.face n hn v u).1.symm
    refine quad_congr fun q _ => ?_
    have e : ∀ w : Nat → K, evalGradTail (cell.basis di.reco) (app n (operMat d S di cell faces) w) q.pt =
        evalGradTail (cell.basis di.reco) (app n L.1 w) q.pt := by
      intro w
      funext c
      exact sum_congr rfl fun j hj => by rw [hsame w j (mem_range.1 hj)]
    rw [e, e]
    rfl

/-- Polynomial consistency of `local_operator`. -/
theorem c112_consistency (C : PolyCell d cell faces N) (hnest : Nested cell) (S : Solver K) {di : DegreeInfo}
    (hcd : di.cell ≤ di.reco) (hcd' : di.reco ≤ di.cell + 2) (hfd : di.reco ≤ di.face + 1)
    (hN : 2 * di.reco ≤ N) (hNf : di.face + di.reco ≤ N) (hG : Green C none di.reco di.cell)
    (hn : Nonsing ((cell.basis di.reco).size - 1) (lapLhs d none (cell.basis di.reco) di.reco cell)) :
    ∃ R A, localOperator d S di cell faces = .ok (R, A) ∧
      ∀ a u, IsInterp C di.cell (uniform di.face faces) (evalFn (cell.basis di.reco) a) u →
        ∀ j < (cell.basis di.reco).size - 1,
          app ((cell.basis di.cell).size + facesDofs (uniform di.face faces)) R u j = a (j + 1) := by
  obtain ⟨R, A, h, _, h2, _⟩ := c112_operator C hnest S hcd hN hNf hn
  refine ⟨R, A, h, fun a u hu j hj => ?_⟩
  rw [h2 u j hj]
  exact HhoLaplacian.c82_consistency C S (tens := none) trivial hcd hcd' hfd hN (by omega) hG hn hu j hj

/-- A cell degree whose basis is larger than the reconstruction basis makes `local_operator` read outside of the
stiffness matrix; `degree_info(c, f)` accepts every pair of degrees. -/
theorem c112_large_cell_degree_ub (S : Solver K) (c f : Nat) (h0 : 0 < (cell.basis (f + 1)).size)
    (h : (cell.basis (f + 1)).size < (cell.basis c).size) :
    (localOperator d S (DegreeInfo.mixed c f) cell faces).IsUB := by
  unfold localOperator DegreeInfo.mixed
  simp only
  rw [if_neg (by omega), if_pos (by omega)]
  trivial

/-- `local_reduction` stores the projections on the cell and on the faces of every polynomial of a degree up to one more
than the degrees of the unknowns. -/
theorem c112_reduction (C : PolyCell d cell faces N) (S : Solver K) {di : DegreeInfo} {rd : Nat}
    (hmT : Nonsing (cell.basis di.cell).size (mass cell di.cell (cell.basis di.cell)))
    (hmF : ∀ g ∈ faces, Nonsing (g.basis di.face).size (mass g.toElem di.face (g.basis di.face)))
    (hd1 : rd ≤ di.cell + 1) (hd2 : rd ≤ di.face + 1) (hN1 : 2 * di.cell + 1 ≤ N) (hN2 : 2 * di.face + 1 ≤ N)
    {p : P → K} (hp : p ∈ C.V rd) :
    IsInterp C di.cell (uniform di.face faces) p (localReduction S di cell faces p) :=
  localReduction_isInterp C S hmT hmF hd1 hd2 hN1 hN2 hp

/-- Reduction followed by reconstruction is the identity on polynomials of the reconstruction degree, up to the
constant, if the cell degree is at least the face degree (and not larger than the reconstruction degree). -/
theorem c112_round_trip_partial (C : PolyCell d cell faces N) (hnest : Nested cell) (S : Solver K) {c f : Nat}
    (hcf : f ≤ c) (hcf' : c ≤ f + 1) (hN : 2 * (f + 1) ≤ N) (hN' : 2 * c + 1 ≤ N) (hG : Green C none (f + 1) c)
    (hmT : Nonsing (cell.basis c).size (mass cell c (cell.basis c)))
    (hmF : ∀ g ∈ faces, Nonsing (g.basis f).size (mass g.toElem f (g.basis f)))
    (hn : Nonsing ((cell.basis (f + 1)).size - 1) (lapLhs d none (cell.basis (f + 1)) (f + 1) cell)) :
    ∃ R A, localOperator d S (DegreeInfo.mixed c f) cell faces = .ok (R, A) ∧
      ∀ a, ∀ j < (cell.basis (f + 1)).size - 1, app ((cell.basis c).size + facesDofs (uniform f faces)) R
        (localReduction S (DegreeInfo.mixed c f) cell faces (evalFn (cell.basis (f + 1)) a)) j = a (j + 1) := by
  obtain ⟨R, A, h, h'⟩ := c112_consistency C hnest S (di := DegreeInfo.mixed c f) hcf' (by simp [DegreeInfo.mixed]; omega)
    (le_refl _) hN (by simp [DegreeInfo.mixed]; omega) hG hn
  exact ⟨R, A, h, fun a => h' a _ (c112_reduction C S (rd := f + 1) hmT hmF (by simp [DegreeInfo.mixed]; omega) (le_refl _)
    hN' (by simp [DegreeInfo.mixed]; omega) (evalFn_mem C (f + 1) a))⟩

/-- With a cell degree one less than the face degree it is not: `local_reduction` integrates with a rule of degree
`2·cell + 1`, which is not exact for the product of the polynomial with the cell basis. On the segment with
`degree_info(0, 1)` and rules exact for the requested degrees, `x²` is not reconstructed (its interpolate would be). -/
theorem c112_round_trip_violated : ∃ C : PolyCell 1 (midCell 1) segFaces 5, Nested (midCell 1) ∧ Green C none 2 0 ∧
    (∀ S u, IsInterp C 0 (uniform 1 segFaces) (fun x => x ^ 2) u →
      ∃ R A, localOperator 1 S (DegreeInfo.mixed 0 1) (midCell 1) segFaces = .ok (R, A) ∧
        app 3 R u 0 = 0 ∧ app 3 R u 1 = 1) ∧
    ∀ S, ∃ R A, localOperator 1 S (DegreeInfo.mixed 0 1) (midCell 1) segFaces = .ok (R, A) ∧
      app 3 R (localReduction S (DegreeInfo.mixed 0 1) (midCell 1) segFaces fun x => x ^ 2) 0 = -1 / 2 ∧
      app 3 R (localReduction S (DegreeInfo.mixed 0 1) (midCell 1) segFaces fun x => x ^ 2) 1 = 3 / 2 := by
  refine ⟨midPoly 1, midNested 1, midGreen 1, fun S u hu => ?_, fun S => ?_⟩
  · obtain ⟨R, A, h, h'⟩ := c112_consistency (midPoly 1) (midNested 1) S (di := DegreeInfo.mixed 0 1) (by decide)
      (by decide) (by decide) (by decide) (by decide) (midGreen 1) (midNonsing 1)
    have e : (fun x : ℚ => x ^ 2) = evalFn ((midCell 1).basis 2) fun j => if j = 2 then 1 else 0 := by
      funext x
      simp [evalFn, midCell, lineBasis, sum_range_succ]
    rw [e] at hu
    have h2 := h' _ u hu
    refine ⟨R, A, h, ?_, ?_⟩
    · exact (h2 0 (by decide)).trans (by simp)
    · exact (h2 1 (by decide)).trans (by simp)
  · obtain ⟨R, A, h, hrel, _⟩ := c112_operator (midPoly 1) (midNested 1) S (di := DegreeInfo.mixed 0 1) (by decide)
      (by decide) (by decide) (midNonsing 1)
    refine ⟨R, A, h, ?_⟩
    set u := localReduction S (DegreeInfo.mixed 0 1) (midCell 1) segFaces fun x => x ^ 2 with hu
    have hu0 : u 0 = 1 / 4 := by
      have := l2Project_spec S (midCell 1) 0 (fun x : ℚ => x ^ 2) (midMass 1) (i := 0) (by decide)
      rw [hu, localReduction_cell S _ _ _ _ (by decide)]
      simp [quad, midCell, lineBasis, evalFn] at this
      refine Eq.trans ?_ (this.trans (by norm_num))
      simp [DegreeInfo.mixed, midCell]
    have hF := reductionFaces_all S 1 (fun x : ℚ => x ^ 2) segFaces 1
      (setSegment (fun _ => 0) 0 1 (l2Project S (midCell 1) 0 fun x => x ^ 2))
    have hu1 : u 1 = 0 := by
      have h1 := hF.1 0 (by decide)
      have := l2Project_spec S (endPoint 0 (-1) 1).toElem 1 (fun x : ℚ => x ^ 2)
        (segFaceMass' (endPoint 0 (-1) 1) (by simp [segFaces])) (i := 0) (by decide)
      rw [hu]
      refine h1.trans ?_
      simpa [quad, endPoint, evalFn] using this
    have hu2 : u 2 = 1 := by
      have h1 := hF.2.1 0 (by decide)
      have := l2Project_spec S (endPoint 1 1 1).toElem 1 (fun x : ℚ => x ^ 2)
        (segFaceMass' (endPoint 1 1 1) (by simp [segFaces])) (i := 0) (by decide)
      rw [hu]
      refine h1.trans ?_
      simpa [quad, endPoint, evalFn] using this
    have r0 := hrel u 0 (by decide)
    have r1 := hrel u 1 (by decide)
    have hn3 : (((midCell 1).basis (DegreeInfo.mixed 0 1).cell).size +
      facesDofs (uniform (DegreeInfo.mixed 0 1).face segFaces)) = 3 := rfl
    rw [hn3] at r0 r1
    simp [midPoly, segPoly, quadLin, quad, midCell, segCell, segFaces, endPoint, lineBasis, rflux, flux, fluxN, tailRows,
      dot, evalGradTail, evalGrad, evalFn, seg, uniform, faceSum, sum_range_succ, DegreeInfo.mixed, hu0, hu1, hu2] at r0 r1
    constructor <;> linarith

/-- The hypotheses of the positive statements hold on the segment with `degree_info(1)`. -/
example : ∃ R A, localOperator 1 (exactSolver ℚ) (DegreeInfo.mixed 1 1) (midCell 1) segFaces = .ok (R, A) ∧
    ∀ a, ∀ j < 2, app 4 R (localReduction (exactSolver ℚ) (DegreeInfo.mixed 1 1) (midCell 1) segFaces
      (evalFn ((midCell 1).basis 2) a)) j = a (j + 1) :=
  c112_round_trip_partial (midPoly 1) (midNested 1) (exactSolver ℚ) (by decide) (by decide) (by decide) (by decide)
    (midGreen1 1) (midMass1 1) segFaceMass' (midNonsing 1)

/-- `degree_info(3, 1)` on the segment. -/
example : (localOperator 1 (exactSolver ℚ) (DegreeInfo.mixed 3 1) (midCell 1) segFaces).IsUB :=
  c112_large_cell_degree_ub _ 3 1 (by decide) (by decide)

/-- The constructors of `degree_info` agree with each other. -/
theorem c112_degree_info (k : Nat) : DegreeInfo.default = DegreeInfo.equal 0 ∧
    DegreeInfo.equal k = DegreeInfo.mixed k k ∧ ∀ c f, (DegreeInfo.mixed c f).cell = c ∧
      (DegreeInfo.mixed c f).face = f ∧ (DegreeInfo.mixed c f).reco = f + 1 :=
  ⟨rfl, rfl, fun _ _ => ⟨rfl, rfl, rfl⟩⟩

/-- `local_stabilization` penalizes on every face the projection of `R û - u_F + (u_T - y)`, `y` the cell projection of
`R û`, divided by the diameter of the cell. -/
theorem c113_hho (C : PolyCell d cell faces N) (S : Solver K) {di : DegreeInfo} (hcd : 2 * di.cell ≤ N)
    (hrc : di.reco + di.cell ≤ N) (hN : 2 * di.face ≤ N) (hNf : di.reco + di.face ≤ N) (hNc : di.cell + di.face ≤ N)
    (hmT : Nonsing (cell.basis di.cell).size (mass cell di.cell (cell.basis di.cell)))
    (hmF : ∀ f ∈ faces, Nonsing (f.basis di.face).size (mass f.toElem di.face (f.basis di.face))) (R : Mat K) :
    let fcs := uniform di.face faces
    let n := (cell.basis di.cell).size + facesDofs fcs
    ∃ (y : (Nat → K) → Nat → K) (δ : Face P K → Nat → Nat → (Nat → K) → Nat → K),
      (∀ u, IsCellProj C di.cell (evalTail (cell.basis di.reco) (app n R u)) (y u)) ∧
      (∀ u, faceAll (fun f k o => IsFaceProj C f k
        (fun x => evalTail (cell.basis di.reco) (app n R u) x - evalFn (f.basis k) (seg o u) x +
          (evalFn (cell.basis di.cell) u x - evalFn (cell.basis di.cell) (y u) x)) (δ f k o u)) fcs
            (cell.basis di.cell).size) ∧
      ∀ v u, form n (localStabilization S di cell R faces) v u = faceSum (fun f k o =>
        C.IF f (fun x => evalFn (f.basis k) (δ f k o v) x * evalFn (f.basis k) (δ f k o u) x) / cell.diam)
        fcs (cell.basis di.cell).size := by
  intro fcs n
  refine ⟨fun u => app n (S.solveMat (cell.basis di.cell).size (mass cell di.cell (cell.basis di.cell))
        (mul ((cell.basis di.reco).size - 1)
          (block (integrateTT cell di.reco (cell.basis di.reco).fn di.cell (cell.basis di.cell).fn) 0 1) R)) u,
    fun f _ o u => app n (stabRhs S di cell R (stabP1 S di cell R) f o) u,
    fun u => stab_cellProj C S hcd hrc hmT R n u, fun u => ?_, fun v u => ?_⟩
  · refine faceAll_of_forall (n := n) (le_refl _) fun f k o hm _ ho => ?_
    obtain ⟨h1, rfl⟩ := mem_uniform hm
    intro i hi
    rw [stab_faceProj C S h1 hN hNf hNc (hmF f h1) R _ ho u i hi]
    congr 1
    funext x
    congr 2
    simp only [evalFn]
    congr 1
    refine Eq.trans (sum_congr rfl fun j hj => ?_) (sum_sub_distrib _ _)
    rw [stabP1_eq, app_proj1 S (by omega) _ _ R u (mem_range.1 hj), sub_mul]
  · unfold localStabilization
    rw [form_stabFaces, form_zero, zero_add]
    refine faceSum_congr (fun f k o hm => ?_) _
    obtain ⟨h1, rfl⟩ := mem_uniform hm
    rw [face_sq C h1 hN, one_div, div_eq_mul_inv, mul_comm]

/-- It is symmetric, and positive semidefinite for a positive diameter. -/
theorem c113_sym_nonneg {K : Type} [Field K] [LinearOrder K] [IsStrictOrderedRing K] {cell : Elem P K}
    {faces : List (Face P K)} (C : PolyCell d cell faces N) (S : Solver K) {di : DegreeInfo} (hcd : 2 * di.cell ≤ N)
    (hrc : di.reco + di.cell ≤ N) (hN : 2 * di.face ≤ N) (hNf : di.reco + di.face ≤ N) (hNc : di.cell + di.face ≤ N)
    (hmT : Nonsing (cell.basis di.cell).size (mass cell di.cell (cell.basis di.cell)))
    (hmF : ∀ f ∈ faces, Nonsing (f.basis di.face).size (mass f.toElem di.face (f.basis di.face))) (R : Mat K)
    (hd : 0 < cell.diam) (hpos : ∀ f ∈ faces, ∀ w : P → K, 0 ≤ C.IF f fun x => w x * w x) (v u : Nat → K) :
    let n := (cell.basis di.cell).size + facesDofs (uniform di.face faces)
    form n (localStabilization S di cell R faces) v u = form n (localStabilization S di cell R faces) u v ∧
      0 ≤ form n (localStabilization S di cell R faces) u u := by
  intro n
  obtain ⟨y, δ, _, _, h⟩ := c113_hho C S hcd hrc hN hNf hNc hmT hmF R
  constructor
  · rw [h v u, h u v]
    refine faceSum_congr (fun f k o _ => ?_) _
    simp only [mul_comm]
  · rw [h u u]
    refine faceSum_nonneg fun f k o hm => ?_
    exact div_nonneg (hpos f (mem_uniform hm).1 _) (le_of_lt hd)

/-- Built from the matrix `R` of `local_operator`, it vanishes on the interpolates of the polynomials of the
reconstruction degree. -/
theorem c113_vanishes (C : PolyCell d cell faces N) (hnest : Nested cell) (S : Solver K) {di : DegreeInfo}
    (hcd : di.cell ≤ di.reco) (hcd' : di.reco ≤ di.cell + 2) (hfd : di.reco ≤ di.face + 1)
    (hN : 2 * di.reco ≤ N) (hN' : 2 * di.face ≤ N) (hNf : di.face + di.reco ≤ N) (hG : Green C none di.reco di.cell)
    (hn : Nonsing ((cell.basis di.reco).size - 1) (lapLhs d none (cell.basis di.reco) di.reco cell))
    (hmT : Nonsing (cell.basis di.cell).size (mass cell di.cell (cell.basis di.cell)))
    (hmF : ∀ f ∈ faces, Nonsing (f.basis di.face).size (mass f.toElem di.face (f.basis di.face))) :
    ∃ R A, localOperator d S di cell faces = .ok (R, A) ∧
      ∀ a u, IsInterp C di.cell (uniform di.face faces) (evalFn (cell.basis di.reco) a) u → ∀ r,
        app ((cell.basis di.cell).size + facesDofs (uniform di.face faces))
          (localStabilization S di cell R faces) u r = 0 := by
  obtain ⟨R, A, h, hR⟩ := c112_consistency C hnest S hcd hcd' hfd hN hNf hG hn
  refine ⟨R, A, h, fun a u hu r => ?_⟩
  unfold localStabilization
  rw [app_stabFaces_zero, app_zero]
  refine faceAll_mono ?_ (faceAll_and hu.2 (faceAll_of_forall (g := fun f k o => (f, some k) ∈ uniform di.face faces ∧
    o + (f.basis k).size ≤ (cell.basis di.cell).size + facesDofs (uniform di.face faces)) (le_refl _)
    fun f k o hm _ ho => ⟨hm, ho⟩))
  rintro f k o _ ⟨hFu, hm, ho⟩
  obtain ⟨h1, rfl⟩ := mem_uniform hm
  have hy := stab_cellProj C S (by omega) (by omega) hmT R
    ((cell.basis di.cell).size + facesDofs (uniform di.face faces)) u
  exact faceProj_zero C h1 hN' (hmF f h1)
    (stab_faceProj C S h1 hN' (by omega) (by omega) (hmF f h1) R (stabP1 S di cell R) ho u)
    fun i hi => hho_moments C (by omega) hmT (hR a u hu) hu.1 hy
      (fun i hi => by rw [stabP1_eq]; exact app_proj1 S (by omega) _ _ R u hi) hFu hi

/-- `local_stabilization_hdg` penalizes on every face the projection of `u_T - u_F`, without a scaling; this is the
diameter of the cell times the stabilization of the old interface. -/
theorem c113_hdg_partial (C : PolyCell d cell faces N) (S : Solver K) {di : DegreeInfo} (hN : 2 * di.face ≤ N)
    (hNc : di.face + di.cell ≤ N)
    (hmF : ∀ f ∈ faces, Nonsing (f.basis di.face).size (mass f.toElem di.face (f.basis di.face))) :
    let fcs := uniform di.face faces
    let n := (cell.basis di.cell).size + facesDofs fcs
    ∃ δ : Face P K → Nat → Nat → (Nat → K) → Nat → K,
      (∀ u f k o, (f, some k) ∈ fcs → IsFaceProj C f k
        (fun x => evalFn (cell.basis di.cell) u x - evalFn (f.basis k) (seg o u) x) (δ f k o u)) ∧
      (∀ v u, form n (localStabilizationHdg S di cell faces) v u = faceSum (fun f k o =>
        C.IF f (fun x => evalFn (f.basis k) (δ f k o v) x * evalFn (f.basis k) (δ f k o u) x))
        fcs (cell.basis di.cell).size) ∧
      (cell.diam ≠ 0 → ∀ v u, form n (localStabilizationHdg S di cell faces) v u =
        cell.diam * form n (hdg S false di.cell cell fcs) v u) := by
  intro fcs n
  have hform : ∀ v u, form n (localStabilizationHdg S di cell faces) v u = faceSum (fun f k o =>
        quad (f.integrate (2 * k)) (fun x => evalFn (f.basis k) (hdgDelta S di.cell k cell f o v) x *
          evalFn (f.basis k) (hdgDelta S di.cell k cell f o u) x)) fcs (cell.basis di.cell).size := by
    intro v u
    unfold localStabilizationHdg
    rw [form_hdgFaces' S di faces _ _ (le_refl _) (le_refl _), form_zero, zero_add]
  refine ⟨fun f k o u => hdgDelta S di.cell k cell f o u, fun u f k o hm => ?_, fun v u => ?_, fun hd v u => ?_⟩
  · obtain ⟨h1, rfl⟩ := mem_uniform hm
    exact hdgDelta_proj C S h1 hN hNc (hmF f h1) u
  · rw [hform]
    refine faceSum_congr (fun f k o hm => ?_) _
    obtain ⟨h1, rfl⟩ := mem_uniform hm
    rw [face_sq C h1 hN]
  · rw [hform]
    unfold hdg
    rw [form_hdgFaces S false fcs _ _ (fun f k hm => by
      obtain ⟨h1, rfl⟩ := mem_uniform hm
      exact hmF f h1) (le_refl _) (le_refl _), form_zero, zero_add, ← faceSum_mul]
    refine faceSum_congr (fun f k o hm => ?_) _
    unfold hOf
    rw [if_neg (by decide)]
    field_simp

/-- So it is not scaled by the inverse of the diameter: on a segment of diameter `h ≠ 0, 1` it differs from the
stabilization of the old interface. -/
theorem c113_hdg_violated (h : ℚ) (h0 : h ≠ 0) (h1 : h ≠ 1) (S : Solver ℚ) :
    ∃ u : Nat → ℚ, form 4 (localStabilizationHdg S (DegreeInfo.equal 1) (midCell h) segFaces) u u ≠
      form 4 (hdg S false 1 (midCell h) (uniform 1 segFaces)) u u := by
  obtain ⟨δ, hp, hf, hs⟩ := c113_hdg_partial (midPoly h) S (di := DegreeInfo.equal 1) (by decide) (by decide) segFaceMass'
  refine ⟨fun j => if j = 2 then 1 else 0, fun he => ?_⟩
  have hs' := hs h0 (fun j => if j = 2 then 1 else 0) (fun j => if j = 2 then 1 else 0)
  have hf' := hf (fun j => if j = 2 then 1 else 0) (fun j => if j = 2 then 1 else 0)
  have p0 := hp (fun j => if j = 2 then 1 else 0) (endPoint 0 (-1) 1) 1 2 (by simp [uniform, segFaces, DegreeInfo.equal]) 0
    (by decide)
  have p1 := hp (fun j => if j = 2 then 1 else 0) (endPoint 1 1 1) 1 3 (by simp [uniform, segFaces, DegreeInfo.equal]) 0
    (by decide)
  simp [midPoly, segPoly, quadLin, quad, midCell, endPoint, lineBasis, evalFn, seg, sum_range_succ, DegreeInfo.equal] at p0 p1
  have hv : form 4 (localStabilizationHdg S (DegreeInfo.equal 1) (midCell h) segFaces) (fun j => if j = 2 then 1 else 0)
      (fun j => if j = 2 then 1 else 0) = 1 := by
    refine hf'.trans ?_
    simp [midPoly, segPoly, quadLin, quad, midCell, segFaces, endPoint, lineBasis, evalFn, uniform, faceSum,
      DegreeInfo.equal]
    rw [p0, p1]
    norm_num
  have hs'' : form 4 (localStabilizationHdg S (DegreeInfo.equal 1) (midCell h) segFaces) (fun j => if j = 2 then 1 else 0)
      (fun j => if j = 2 then 1 else 0) = h * form 4 (hdg S false 1 (midCell h) (uniform 1 segFaces))
        (fun j => if j = 2 then 1 else 0) (fun j => if j = 2 then 1 else 0) := hs'
  rw [← he, hv, mul_one] at hs''
  exact h1 hs''.symm

/-- The hypotheses of the positive statements hold on the segment with `degree_info(1)`. -/
example : ∃ R A, localOperator 1 (exactSolver ℚ) (DegreeInfo.equal 1) (midCell 1) segFaces = .ok (R, A) ∧
    ∀ a u, IsInterp (midPoly 1) 1 (uniform 1 segFaces) (evalFn ((midCell 1).basis 2) a) u → ∀ r,
      app 4 (localStabilization (exactSolver ℚ) (DegreeInfo.equal 1) (midCell 1) R segFaces) u r = 0 :=
  c113_vanishes (midPoly 1) (midNested 1) (exactSolver ℚ) (by decide) (by decide) (by decide) (by decide) (by decide)
    (by decide) (midGreen1 1) (midNonsing 1) (midMass1 1) segFaceMass'

end Verif.Props.Slapl
