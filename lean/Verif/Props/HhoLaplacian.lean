import Verif.Lemmas.HhoExample
/-!
C82: the potential reconstruction of the scalar HHO method. C83: interpolation.
-/
namespace Verif.Props.HhoLaplacian
open Finset Verif.Hho Verif.Spec.Hho Verif.Lemmas.Hho LocalMatrix

variable {K P : Type} [Field K] {d N : Nat} {tens : Option (Mat K)} {cell : Elem P K} {faces : List (Face P K)}

/-- The reconstruction `r = oper · û` solves the documented problem: for every basis function `w` but the constant,
`(D∇w, ∇r)_T = (D∇w, ∇u_T)_T + Σ_F (D∇w·n, u_F - u_T)_F`, for all unknowns `û`. -/
theorem c82_relation (C : PolyCell d cell faces N) (S : Solver K) (ht : TensSym d tens) {rd cd fd : Nat}
    (hcd : cd ≤ rd) (hN : 2 * rd ≤ N) (hNf : rd + fd ≤ N)
    (hn : Nonsing ((cell.basis rd).size - 1) (lapLhs d tens (cell.basis rd) rd cell)) (u : Nat → K) {i : Nat}
    (hi : i + 1 < (cell.basis rd).size) :
    C.IT (fun x => dot d (rflux d tens (cell.basis rd) x i) (evalGradTail (cell.basis rd)
        (app ((cell.basis cd).size + facesDofs (uniform fd faces))
          (laplacian d tens false S rd cd fd cell faces).1 u) x)) =
      C.IT (fun x => dot d (rflux d tens (cell.basis rd) x i) (evalGrad (cell.basis cd) u x)) +
      faceSum (fun f k o => C.IF f fun x => fluxN d tens (cell.basis rd) f.normal x i *
        (evalFn (f.basis k) (seg o u) x - evalFn (cell.basis cd) u x)) (uniform fd faces) (cell.basis cd).size := by
  rw [← lapLhs_exact C hN _ hi, ← lapRhs_exact C S hcd hN hNf u hi]
  exact app_oper ht S false _ rd cd fd _ hn u (by omega)

/-- Polynomial consistency: the reconstruction of the interpolate of a polynomial of the reconstruction degree has the
coefficients of that polynomial (all but the constant one), for `fd + 1 ≥ rd` and `cd ≥ rd - 2`. -/
theorem c82_consistency (C : PolyCell d cell faces N) (S : Solver K) (ht : TensSym d tens) {rd cd fd : Nat}
    (hcd : cd ≤ rd) (hcd' : rd ≤ cd + 2) (hfd : rd ≤ fd + 1) (hN : 2 * rd ≤ N) (hNf : rd + fd ≤ N)
    (hG : Green C tens rd cd)
    (hn : Nonsing ((cell.basis rd).size - 1) (lapLhs d tens (cell.basis rd) rd cell)) {a u : Nat → K}
    (hu : IsInterp C cd (uniform fd faces) (evalFn (cell.basis rd) a) u) :
    ∀ j < (cell.basis rd).size - 1, app ((cell.basis cd).size + facesDofs (uniform fd faces))
      (laplacian d tens false S rd cd fd cell faces).1 u j = a (j + 1) := by
  refine solve_unique hn fun i hi => ?_
  have hi' : i + 1 < (cell.basis rd).size := by omega
  rw [lapLhs_exact C hN _ hi', lapLhs_exact C hN _ hi', c82_relation C S ht hcd hN hNf hn u hi',
    consistency_rhs C hcd' hfd hG hu hi']
  congr 1
  funext x
  rw [evalGradTail_eq C]

/-- The variant with face projection gives the same reconstruction, for `fd + 1 ≥ rd`. -/
theorem c82_face_projection (C : PolyCell d cell faces N) (S : Solver K) (ht : TensSym d tens) {rd cd fd : Nat}
    (hfd : rd ≤ fd + 1)
    (hn : Nonsing ((cell.basis rd).size - 1) (lapLhs d tens (cell.basis rd) rd cell))
    (hm : ∀ f ∈ faces, Nonsing (f.basis fd).size (accum (f.integrate (rd + max cd fd)) (f.basis fd).fn (f.basis fd).fn))
    (u : Nat → K) : ∀ j < (cell.basis rd).size - 1,
      app ((cell.basis cd).size + facesDofs (uniform fd faces)) (laplacian d tens true S rd cd fd cell faces).1 u j =
      app ((cell.basis cd).size + facesDofs (uniform fd faces)) (laplacian d tens false S rd cd fd cell faces).1 u j := by
  refine solve_unique hn fun i hi => ?_
  unfold laplacian
  rw [app_oper ht S true _ rd cd fd _ hn u hi, app_oper ht S false _ rd cd fd _ hn u hi,
    app_lapRhs_proj C S hfd hm u (by omega)]

/-- The matrix `data` is the energy form of the reconstruction, symmetric, for any reconstruction basis and with or
without face projection. -/
theorem c82_energy (S : Solver K) (ht : TensSym d tens) (up : Bool) (rb : Basis P K) (rd cd fd n : Nat)
    (hn : Nonsing (rb.size - 1) (lapLhs d tens rb rd cell)) (v u : Nat → K) :
    let L := laplacianWith d tens up S rb rd cd fd cell faces
    form n L.2 v u = quad (cell.integrate (2 * (rd - 1))) (fun x =>
      dot d (fluxOf d tens (evalGradTail rb (app n L.1 v) x)) (evalGradTail rb (app n L.1 u) x)) ∧
    form n L.2 v u = form n L.2 u v := by
  intro L
  have h := form_data ht S up rb rd cd fd n hn (faces := faces)
  refine ⟨h v u, ?_⟩
  rw [h v u, h u v]
  exact quad_congr fun q _ => fluxOf_dot_comm ht _ _

/-- `data` is positive semidefinite for non-negative weights and a positive semidefinite tensor. -/
theorem c82_nonneg {K : Type} [Field K] [LinearOrder K] [IsStrictOrderedRing K] {tens : Option (Mat K)}
    {cell : Elem P K} {faces : List (Face P K)} (S : Solver K) (ht : TensSym d tens)
    (hp : ∀ g : Nat → K, 0 ≤ dot d (fluxOf d tens g) g) (up : Bool) (rb : Basis P K) (rd cd fd n : Nat)
    (hw : ∀ q ∈ cell.integrate (2 * (rd - 1)), 0 ≤ q.w)
    (hn : Nonsing (rb.size - 1) (lapLhs d tens rb rd cell)) (u : Nat → K) :
    0 ≤ form n (laplacianWith d tens up S rb rd cd fd cell faces).2 u u := by
  rw [(c82_energy S ht up rb rd cd fd n hn u u).1]
  exact quad_nonneg hw fun q _ => hp _

/-- The version with degrees per face solves the same problem with the sum over the faces that have unknowns. -/
theorem c82_info_relation (C : PolyCell d cell faces N) (hnest : Nested cell) (S : Solver K) {rd cd : Nat} (hrd : 0 < rd)
    (hcd : cd ≤ rd) (hN : 2 * rd ≤ N) (fcs : List (InfoFace P K))
    (hf : ∀ f k, (f, some k) ∈ fcs → f ∈ faces ∧ rd + k ≤ N)
    (hn : Nonsing ((cell.basis rd).size - 1) (lapInfoLhs d rd cell)) (u : Nat → K) {i : Nat}
    (hi : i + 1 < (cell.basis rd).size) :
    C.IT (fun x => dot d (rflux d none (cell.basis rd) x i) (evalGradTail (cell.basis rd)
        (app ((cell.basis cd).size + facesDofs fcs) (laplacianInfo d rd cd S cell fcs).1 u) x)) =
      C.IT (fun x => dot d (rflux d none (cell.basis rd) x i) (evalGrad (cell.basis cd) u x)) +
      faceSum (fun f k o => C.IF f fun x => fluxN d none (cell.basis rd) f.normal x i *
        (evalFn (f.basis k) (seg o u) x - evalFn (cell.basis cd) u x)) fcs (cell.basis cd).size := by
  have hs : SymOn ((cell.basis rd).size - 1) (lapInfoLhs d rd cell) := by
    rw [lapInfoLhs_eq hrd]; exact lapLhs_sym (tens := none) trivial _ _ _
  have h := app_solveMat S (m := (cell.basis cd).size + facesDofs fcs) (B := lapInfoRhs d rd cd cell fcs) hs hn u
    (show i < (cell.basis rd).size - 1 by omega)
  rw [app_lapInfoRhs hrd hcd hnest fcs u hi] at h
  rw [← lapLhs_exact C hN _ hi, ← lapInfoLhs_eq hrd]
  refine h.trans ?_
  congr 1
  · refine cell_quad C (n := rd - 1 + (cd - 1)) (by omega) (by omega) ?_
    exact dot_mem C (fun c hc => rflux_mem C rd hi hc) fun c hc => evalGrad_mem C cd u hc
  · refine faceSum_congr (fun f k off hm => ?_) _
    obtain ⟨hf, hk⟩ := hf f k hm
    refine face_quad C hf (n := rd - 1 + max k cd) (by omega) (by omega) ?_
    refine OnV.mul C (OnV.of_mem C (fluxN_mem C rd f.normal hi)) (OnV.sub C ?_ ?_)
    · exact OnV.mono C (by omega) (OnV.evalFb C hf k _)
    · exact OnV.mono C (by omega) (OnV.of_mem C (evalFn_mem C cd u))

/-- With the same degree on all faces the two versions give the same reconstruction. -/
theorem c82_info_same (C : PolyCell d cell faces N) (hnest : Nested cell) (S : Solver K) {rd cd fd : Nat} (hrd : 0 < rd)
    (hcd : cd ≤ rd) (hN : 2 * rd ≤ N) (hNf : rd + fd ≤ N)
    (hn : Nonsing ((cell.basis rd).size - 1) (lapLhs d none (cell.basis rd) rd cell)) (u : Nat → K) :
    ∀ j < (cell.basis rd).size - 1, app ((cell.basis cd).size + facesDofs (uniform fd faces))
        (laplacianInfo d rd cd S cell (uniform fd faces)).1 u j =
      app ((cell.basis cd).size + facesDofs (uniform fd faces)) (laplacian d none false S rd cd fd cell faces).1 u j := by
  refine solve_unique hn fun i hi => ?_
  have hi' : i + 1 < (cell.basis rd).size := by omega
  rw [lapLhs_exact C hN _ hi', lapLhs_exact C hN _ hi', c82_relation C S (tens := none) trivial hcd hN hNf hn u hi',
    c82_info_relation C hnest S hrd hcd hN (uniform fd faces) (fun f k hm => by
      obtain ⟨hf, rfl⟩ := mem_uniform hm
      exact ⟨hf, hNf⟩) (by rw [lapInfoLhs_eq hrd]; exact hn) u hi']

/-- The interpolation operator of the library stores the L² projections on the cell and on every face of a polynomial
of degree `rd`, provided the extra quadrature degree `di` covers the difference of degrees. -/
theorem c83_interpolation (C : PolyCell d cell faces N) (S : Solver K) {rd cd fd fbs di : Nat}
    (hs : ∀ g ∈ faces, (g.basis fd).size = fbs)
    (hmT : Nonsing (cell.basis cd).size (mass cell cd (cell.basis cd)))
    (hmF : ∀ g ∈ faces, Nonsing (g.basis fd).size (mass g.toElem fd (g.basis fd)))
    (hd1 : rd ≤ cd + 2 * di) (hd2 : rd ≤ fd + 2 * di) (hN1 : 2 * (cd + di) ≤ N) (hN2 : 2 * (fd + di) ≤ N)
    {p : P → K} (hp : p ∈ C.V rd) :
    IsInterp C cd (uniform fd faces) p (project S cell faces cd fd fbs di p) :=
  project_isInterp C S hs hmT hmF hd1 hd2 hN1 hN2 hp

/-- Interpolation followed by reconstruction is the identity on polynomials of the reconstruction degree, up to the
constant. -/
theorem c83_round_trip (C : PolyCell d cell faces N) (S : Solver K) (ht : TensSym d tens) {rd cd fd fbs di : Nat}
    (hs : ∀ g ∈ faces, (g.basis fd).size = fbs)
    (hmT : Nonsing (cell.basis cd).size (mass cell cd (cell.basis cd)))
    (hmF : ∀ g ∈ faces, Nonsing (g.basis fd).size (mass g.toElem fd (g.basis fd)))
    (hn : Nonsing ((cell.basis rd).size - 1) (lapLhs d tens (cell.basis rd) rd cell)) (hG : Green C tens rd cd)
    (hcd : cd ≤ rd) (hcd' : rd ≤ cd + 2) (hfd : rd ≤ fd + 1) (hdi : 1 ≤ di)
    (hN : 2 * rd ≤ N) (hN1 : 2 * (cd + di) ≤ N) (hN2 : 2 * (fd + di) ≤ N) (a : Nat → K) :
    ∀ j < (cell.basis rd).size - 1, app ((cell.basis cd).size + facesDofs (uniform fd faces))
      (laplacian d tens false S rd cd fd cell faces).1
      (project S cell faces cd fd fbs di (evalFn (cell.basis rd) a)) j = a (j + 1) :=
  c82_consistency C S ht hcd hcd' hfd hN (by omega) hG hn
    (c83_interpolation C S hs hmT hmF (by omega) (by omega) hN1 hN2 (evalFn_mem C rd a))

/-- The hypotheses hold on the segment `[0, 1]` with linear cell unknowns, constant face unknowns of degree one and a
quadratic reconstruction. -/
example (a : Nat → ℚ) : ∀ j < 2, app 4 (laplacian 1 none false (exactSolver ℚ) 2 1 1 segCell segFaces).1
    (project (exactSolver ℚ) segCell segFaces 1 1 1 1 (evalFn (segCell.basis 2) a)) j = a (j + 1) :=
  c83_round_trip segPoly (exactSolver ℚ) (tens := none) trivial (rd := 2) (cd := 1) (fd := 1) (fbs := 1) (di := 1)
    (fun g hg => by
      simp only [segFaces, List.mem_cons, List.not_mem_nil, or_false] at hg
      rcases hg with rfl | rfl <;> rfl)
    segMass
    (fun g hg => by
      have := segFaceMass g hg (2 * 1)
      simp only [segFaces, List.mem_cons, List.not_mem_nil, or_false] at hg
      rcases hg with rfl | rfl <;> exact this)
    segNonsing segGreen (by omega) (by omega) (by omega) (by omega) (by omega) (by omega) (by omega) a

/-- The energy form on the segment. -/
example (u : Nat → ℚ) :
    0 ≤ form 4 (laplacian 1 none false (exactSolver ℚ) 2 1 1 segCell segFaces).2 u u :=
  c82_nonneg (d := 1) (cell := segCell) (exactSolver ℚ) (tens := none) trivial
    (fun g => by simp [fluxOf, dot]; exact mul_self_nonneg _) false (segCell.basis 2) 2 1 1 4
    (fun q hq => by
      simp only [segCell, List.mem_cons, List.not_mem_nil, or_false] at hq
      rcases hq with rfl | rfl | rfl | rfl | rfl <;> norm_num) segNonsing u

/-- With a face without unknowns: the version with degrees per face on the segment. -/
example (u : Nat → ℚ) (i : Nat) (hi : i + 1 < 3) :=
  c82_info_relation segPoly segNested (exactSolver ℚ) (rd := 2) (cd := 1) (by omega) (by omega) (by omega)
    [(endPoint 0 (-1) 1, some 1), (endPoint 1 1 1, none)]
    (fun f k h => by
      simp only [List.mem_cons, List.not_mem_nil, or_false, Prod.mk.injEq, Option.some.injEq, reduceCtorEq, and_false] at h
      obtain ⟨rfl, rfl⟩ := h
      exact ⟨List.mem_cons_self, by omega⟩)
    (by rw [lapInfoLhs_eq (by omega)]; exact segNonsing) u (i := i) hi

/-- Face projection on the segment. -/
example (u : Nat → ℚ) := c82_face_projection segPoly (exactSolver ℚ) (tens := none) trivial (rd := 2) (cd := 1) (fd := 1)
  (by omega) segNonsing (fun f hf => by
    have := segFaceMass f hf 3
    simp only [segFaces, List.mem_cons, List.not_mem_nil, or_false] at hf
    rcases hf with rfl | rfl <;> exact this) u

end Verif.Props.HhoLaplacian
