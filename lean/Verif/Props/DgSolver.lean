import Verif.Lemmas.DgSolverExample
import Verif.Lemmas.HhoSolverErrors
/-!
Properties C175 and C176: the interior penalty discontinuous Galerkin solver of `apps/diffusion/src/diffusion_dg.cpp`.
-/
namespace Verif.Props.DgSolver
open Finset Verif.Hho Verif.DgSolver Verif.Spec.Hho Verif.Spec.Dg Verif.Lemmas.Hho Verif.Lemmas.Dg
open LocalMatrix
open Verif.HhoSolver (LU quadForm)
open Verif.Lemmas.HhoSolver (form_unit app_unit unitVec exactLU)

section
variable {K P : Type} [Field K]

/-- C175 (the form). On a mesh with at most two cells per face and opposite normals the assembly succeeds; the
matrix is that of the symmetric interior penalty form (with jumps and averages over the cells of each face), the
right-hand side is the load. -/
theorem c175_form {d k cbs : Nat} (eta : K) {m : DgSolver.Mesh P K} (h : MeshOk d k cbs m) (f : P → K) :
    ∃ s, assemble d k cbs eta m f = .ok s ∧ s.rhs.length = cbs * m.ncells ∧
      (∀ y x, form (cbs * m.ncells) s.lhs y x = sipForm d k eta m (part cbs y) (part cbs x)) ∧
      ∀ y, ∑ i ∈ range (cbs * m.ncells), s.rhs.getD i 0 * y i = loadForm k m f (part cbs y) :=
  assemble_form eta h f

example : MeshOk 1 2 3 lineDg ∧ MeshOk 2 1 3 square := ⟨lineDg_ok, square_ok⟩

/-- C175 (symmetry). The assembled matrix is symmetric. -/
theorem c175_symmetric {d k cbs : Nat} {eta : K} {m : DgSolver.Mesh P K} (h : MeshOk d k cbs m) {f : P → K}
    {s : Assembly.DG K} (hs : assemble d k cbs eta m f = .ok s) : SymOn (cbs * m.ncells) s.lhs := by
  obtain ⟨s', h1, _, h2, _⟩ := assemble_form eta h f
  obtain rfl : s' = s := by rw [hs] at h1; injection h1 with h1; exact h1.symm
  intro i hi j hj
  have key : ∀ Y X, sipForm d k eta m Y X = sipForm d k eta m X Y := by
    intro Y X
    unfold sipForm
    congr 1
    · exact sum_congr rfl fun a _ => quad_congr fun q _ => dot_comm ..
    · refine sum_congr rfl fun f _ => quad_congr fun q _ => ?_
      rw [dot_comm d (jump k m f Y q.pt) (jump k m f X q.pt), dot_comm d (jump k m f Y q.pt) (avg k m f X q.pt),
        dot_comm d (avg k m f Y q.pt)]
      ring
  rw [← app_unit hj s'.lhs i, ← form_unit hi, h2, key, ← h2, form_unit hj, app_unit hi]

example : ∃ s, assemble 1 2 3 7 lineDg (fun _ => 2) = .ok s := by
  obtain ⟨s, h, _⟩ := c175_form (7 : ℚ) lineDg_ok fun _ => 2
  exact ⟨s, h⟩

/-- C176 (the error). The accumulated error is the squared distance, by the quadrature of the mass matrix, of the
computed solution to the projection of the given one. -/
theorem c176_error (S : Solver K) (lu : LU K) {d k cbs : Nat} {eta : K} {m : DgSolver.Mesh P K} (h : MeshOk d k cbs m)
    {f u : P → K} {r : DgSolver.Result K} (hr : run S lu d k cbs eta m f u = .ok r) :
    r.err = ∑ a ∈ range m.ncells, quad ((m.cell a).elem.integrate (2 * k)) fun x =>
      (Spec.Dg.val k m (part cbs r.sol) a x -
        evalFn ((m.cell a).elem.basis k) (projectElem S (m.cell a).elem k u 0) x) ^ 2 := by
  obtain ⟨s, h1, _⟩ := assemble_form eta h f
  unfold run at hr
  rw [h1] at hr
  simp only [Outcome.bind_ok, Outcome.ok.injEq] at hr
  subst hr
  have fold : ∀ (l : List Nat) (g : Nat → K) (z : K), l.foldl (fun err a => err + g a) z = z + (l.map g).sum := by
    intro l g
    induction l with
    | nil => intro z; simp
    | cons a l ih => intro z; rw [List.foldl_cons, ih, List.map_cons, List.sum_cons]; ring
  simp only [fold, zero_add, list_range_sum]
  refine sum_congr rfl fun a ha => ?_
  refine (Lemmas.HhoSolver.form_mass _ _ _ _).trans (quad_congr fun q _ => ?_)
  congr 1
  unfold Spec.Dg.val evalFn projectElem part
  rw [← sum_sub_distrib]
  refine sum_congr rfl fun i _ => ?_
  rw [h.size a (mem_range.1 ha), Nat.mul_comm a cbs]
  ring

/-- C176 (exactness). If `u` is a polynomial of the degree of the method with `-Δu = f`, vanishing on the boundary,
and the system is non-singular, the solver returns `u` on every cell and the error zero. -/
theorem c176_exact [CharZero K] (S : Solver K) (lu : LU K) {d k cbs : Nat} {eta : K} {m : DgSolver.Mesh P K}
    (h : MeshOk d k cbs m) {f u : P → K} {gu : P → Nat → K} (hE : ExactMesh d k m f u gu)
    (hn : ∀ s, assemble d k cbs eta m f = .ok s → Nonsing (cbs * m.ncells) s.lhs) :
    ∃ r, run S lu d k cbs eta m f u = .ok r ∧
      (∀ a < m.ncells, ∀ x, Spec.Dg.val k m (part cbs r.sol) a x = u x) ∧ r.err = 0 := by
  obtain ⟨U, hu, hg⟩ := exact_coeffs hE
  obtain ⟨s, h1, _, h2, h3⟩ := assemble_form eta h f
  have hs := hn s h1
  have hpart : ∀ a, ∀ i < cbs, part cbs (fun i => U (i / cbs) (i % cbs)) a i = U a i := by
    intro a i hi
    show U ((cbs * a + i) / cbs) ((cbs * a + i) % cbs) = _
    rw [Nat.mul_add_div h.pos, Nat.div_eq_of_lt hi, Nat.mul_add_mod, Nat.mod_eq_of_lt hi, Nat.add_zero]
  have hval : ∀ (X : Nat → Nat → K) a, a < m.ncells → (∀ i < cbs, X a i = U a i) → ∀ x,
      Spec.Dg.val k m X a x = u x := by
    intro X a ha hX x
    rw [← hu a ha x]
    unfold Spec.Dg.val evalFn
    exact sum_congr rfl fun i hi => by rw [hX i (by rw [← h.size a ha]; exact mem_range.1 hi)]
  have hgrd : ∀ a < m.ncells, ∀ x, ∀ c < d, grd k m (part cbs fun i => U (i / cbs) (i % cbs)) a x c = gu x c := by
    intro a ha x c hc
    rw [← hg a ha x c hc]
    unfold grd evalGrad
    exact sum_congr rfl fun i hi => by rw [hpart a i (by rw [← h.size a ha]; exact mem_range.1 hi)]
  have hsol : ∀ i < cbs * m.ncells, lu.solve (cbs * m.ncells) s.lhs (fun i => s.rhs.getD i 0) i =
      U (i / cbs) (i % cbs) := by
    refine solve_unique hs (fun i hi => ?_)
    refine (lu.solves _ _ _ hs i hi).trans ?_
    rw [← form_unit hi, h2, sip_exact h eta hE (fun a ha => hval _ a ha (hpart a)) hgrd, ← h3]
    simp [unitVec, hi]
  have hcoef : ∀ a < m.ncells, ∀ i < cbs,
      part cbs (lu.solve (cbs * m.ncells) s.lhs fun i => s.rhs.getD i 0) a i = U a i := by
    intro a ha i hi
    have hlt : cbs * a + i < cbs * m.ncells := by
      calc cbs * a + i < cbs * a + cbs := by omega
        _ = cbs * (a + 1) := by ring
        _ ≤ cbs * m.ncells := Nat.mul_le_mul_left _ ha
    exact (hsol _ hlt).trans (hpart a i hi)
  obtain ⟨r, hrun, hrs⟩ : ∃ r, run S lu d k cbs eta m f u = .ok r ∧
      r.sol = lu.solve (cbs * m.ncells) s.lhs fun i => s.rhs.getD i 0 := by
    unfold run
    rw [h1]
    exact ⟨_, rfl, rfl⟩
  rw [← hrs] at hcoef
  have hr := c176_error S lu h hrun
  refine ⟨r, hrun, fun a ha => hval _ a ha (hcoef a ha), ?_⟩
  rw [hr]
  refine sum_eq_zero fun a ha => ?_
  obtain ⟨N, _, C, hC⟩ := hE.cell a (mem_range.1 ha)
  rw [quad_congr (v := fun _ => 0 * 0) fun q _ => ?_, quad_mul, zero_mul]
  rw [hval _ a (mem_range.1 ha) (hcoef a (mem_range.1 ha))]
  have : evalFn ((m.cell a).elem.basis k) (projectElem S (m.cell a).elem k u 0) q.pt = u q.pt := by
    rw [← hu a (mem_range.1 ha) q.pt]
    exact sum_congr rfl fun i hi => by
      rw [show projectElem S (m.cell a).elem k u 0 i = U a i from
        proj_exact S hC.mass (fun x => hu a (mem_range.1 ha) x) (mem_range.1 hi)]
  rw [this]
  ring

end

section
variable {K P : Type} [Field K] [LinearOrder K] [IsStrictOrderedRing K]

/-- C175 (positivity, partial). If the penalty exceeds the constant of the trace inequality, the matrix is positive
definite and the system non-singular. -/
theorem c175_positive_partial {d k cbs : Nat} {eta C : K} {m : DgSolver.Mesh P K} (h : MeshOk d k cbs m)
    (hP : PosMesh d k m) (h0 : 0 ≤ C) (hC : TraceBound d k m C) (he : C < eta) {f : P → K} {s : Assembly.DG K}
    (hs : assemble d k cbs eta m f = .ok s) :
    (∀ x, 0 ≤ form (cbs * m.ncells) s.lhs x x) ∧
      (∀ x, form (cbs * m.ncells) s.lhs x x = 0 → ∀ i < cbs * m.ncells, x i = 0) ∧
      Nonsing (cbs * m.ncells) s.lhs := by
  obtain ⟨s', h1, _, h2, _⟩ := assemble_form eta h f
  obtain rfl : s' = s := by rw [hs] at h1; injection h1 with h1; exact h1.symm
  have hz : ∀ x, form (cbs * m.ncells) s'.lhs x x = 0 → ∀ i < cbs * m.ncells, x i = 0 := by
    intro x hx i hi
    rw [h2] at hx
    have := sip_definite h hP h0 hC he hx (a := i / cbs) (j := i % cbs) (Nat.div_lt_of_lt_mul hi) (Nat.mod_lt _ h.pos)
    unfold part at this
    rwa [Nat.div_add_mod] at this
  refine ⟨fun x => by rw [h2]; exact (sip_nonneg h hP h0 hC he _).1, hz, fun x hx => hz x ?_⟩
  unfold form app
  exact sum_eq_zero fun i hi => by rw [hx i (mem_range.1 hi), mul_zero]

example : PosMesh 1 2 lineDg ∧ TraceBound 1 2 lineDg 6 ∧ PosMesh 2 1 square ∧ TraceBound 2 1 square 2 :=
  ⟨lineDg_pos, lineDg_trace, square_pos, square_trace⟩

/-- C176 (exactness with a sufficient penalty). With a penalty above the trace constant the solver returns polynomial
solutions of the degree of the method that vanish on the boundary. -/
theorem c176_exact_coercive (S : Solver K) (lu : LU K) {d k cbs : Nat} {eta C : K} {m : DgSolver.Mesh P K}
    (h : MeshOk d k cbs m) (hP : PosMesh d k m) (h0 : 0 ≤ C) (hC : TraceBound d k m C) (he : C < eta) {f u : P → K}
    {gu : P → Nat → K} (hE : ExactMesh d k m f u gu) :
    ∃ r, run S lu d k cbs eta m f u = .ok r ∧
      (∀ a < m.ncells, ∀ x, Spec.Dg.val k m (part cbs r.sol) a x = u x) ∧ r.err = 0 :=
  c176_exact S lu h hE fun _ hs => (c175_positive_partial h hP h0 hC he hs).2.2

/-- Two segments, quadratic polynomials, penalty 7: the solution `x (2 - x)` is returned. -/
example : ∃ r, run (exactSolver ℚ) (exactLU ℚ) 1 2 3 7 lineDg (fun _ => 2) (fun x => x * (2 - x)) = .ok r ∧
    (∀ a < 2, ∀ x, Spec.Dg.val 2 lineDg (part 3 r.sol) a x = x * (2 - x)) ∧ r.err = 0 :=
  c176_exact_coercive _ _ lineDg_ok lineDg_pos (by norm_num) lineDg_trace (by norm_num) lineDg_exact

end

/-- C175 (violation). On the unit square with linear polynomials (the default degree) the default penalty 1 gives a
matrix that is not positive semidefinite, and the penalty 3/2 a singular one. -/
theorem c175_violation : MeshOk 2 1 3 square ∧ PosMesh 2 1 square ∧
    (∃ s, assemble 2 1 3 1 square (fun _ => 0) = .ok s ∧ ∃ x, form 3 s.lhs x x < 0) ∧
    ∃ s, assemble 2 1 3 (3 / 2) square (fun _ => 0) = .ok s ∧ ¬ Nonsing 3 s.lhs := by
  have get : ∀ {eta : ℚ} {s : Assembly.DG ℚ} {i j : Nat} {v : ℚ}, assemble 2 1 3 eta square (fun _ => 0) = .ok s →
      sqEntry eta i j = .ok v → s.lhs i j = v := by
    intro eta s i j v hs h
    unfold sqEntry at h
    rw [hs] at h
    simpa using h
  refine ⟨square_ok, square_pos, ?_, ?_⟩
  · obtain ⟨s, hs, _⟩ := assemble_form (1 : ℚ) square_ok fun _ => 0
    refine ⟨s, hs, unitVec 1, ?_⟩
    rw [form_unit (by decide), app_unit (by decide), get hs sqEntry_default]
    norm_num
  · obtain ⟨s, hs, _⟩ := assemble_form (3 / 2 : ℚ) square_ok fun _ => 0
    refine ⟨s, hs, fun hn => ?_⟩
    obtain ⟨e0, e1, e2⟩ := sqEntry_singular
    have := hn (unitVec 1) (fun i hi => by
      rw [show ∑ j ∈ range 3, s.lhs i j * unitVec 1 j = s.lhs i 1 from app_unit (by decide) s.lhs i]
      interval_cases i
      · exact get hs e0
      · exact get hs e1
      · exact get hs e2) 1 (by decide)
    simp [unitVec] at this

end Verif.Props.DgSolver
