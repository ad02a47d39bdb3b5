import Verif.Lemmas.GaussOld
import Mathlib.Analysis.Matrix.Spectrum
/-! C156: integration on one-dimensional meshes. -/
namespace Verif.Props.GolubWelsch
open Verif.GolubWelsch Verif.Spec Verif.Quad Polynomial

/-- C156. The rule of Golub and Welsch has the expected number of nodes, all in `[-1, 1]`, positive weights, and integrates
polynomials of the requested degree, whatever the degree. -/
theorem c156_golub_welsch (sol : Solver) (hs : SolvesSymmetric sol) (d : ℕ) :
    (golubWelsch sol d).length = d / 2 + 1 ∧ (∀ x ∈ golubWelsch sol d, -1 ≤ x.1 ∧ x.1 ≤ 1 ∧ 0 < x.2) ∧
    ∀ r : ℝ[X], r.natDegree ≤ d →
      quadSum (golubWelsch sol d) (fun x => r.eval x) = ∫ x in (-1 : ℝ)..1, r.eval x :=
  ⟨(golub_nice sol hs d).1, (golub_nice sol hs d).2, fun _ hr => poly_exact (fun k hk => golub_moment sol hs d k hk) hr⟩

/-- C156. So does `edge_quadrature`, which has closed formulas for up to five nodes. -/
theorem c156_edge (sol : Solver) (hs : SolvesSymmetric sol) (d : ℕ) :
    (edgeQuadrature sol d).length = d / 2 + 1 ∧ (∀ x ∈ edgeQuadrature sol d, -1 ≤ x.1 ∧ x.1 ≤ 1 ∧ 0 < x.2) ∧
    ∀ r : ℝ[X], r.natDegree ≤ d →
      quadSum (edgeQuadrature sol d) (fun x => r.eval x) = ∫ x in (-1 : ℝ)..1, r.eval x :=
  ⟨(gauss_nice sol hs d).1, (gauss_nice sol hs d).2, fun _ hr => poly_exact (fun k hk => gauss_moment sol hs d k hk) hr⟩

/-- C156. Integration on a cell of a one-dimensional mesh, whatever the order of its points: the nodes lie in the cell, the
weights are positive unless the cell is a point, and polynomials of the requested degree are integrated. -/
theorem c156_cell (sol : Solver) (hs : SolvesSymmetric sol) (a b : ℝ) (d : ℕ) :
    (integrateCell sol a b d).length = d / 2 + 1 ∧
    (∀ x ∈ integrateCell sol a b d, min a b ≤ x.1 ∧ x.1 ≤ max a b ∧ (a ≠ b → 0 < x.2)) ∧
    ∀ r : ℝ[X], r.natDegree ≤ d →
      quadSum (integrateCell sol a b d) (fun x => r.eval x) = ∫ x in (min a b)..(max a b), r.eval x := by
  have hn := gauss_nice sol hs d
  refine ⟨by rw [integrateCell, List.length_map]; exact hn.1, ?_, ?_⟩
  · intro x hx
    rw [integrateCell, List.mem_map] at hx
    obtain ⟨y, hy, rfl⟩ := hx
    obtain ⟨h1, h2, h3⟩ := hn.2 y hy
    dsimp only
    have m1 := min_le_left a b
    have m2 := min_le_right a b
    have m3 := le_max_left a b
    have m4 := le_max_right a b
    refine ⟨?_, ?_, fun hab => ?_⟩
    · nlinarith
    · nlinarith
    · have : 0 < |b - a| := abs_pos.2 (sub_ne_zero.2 (Ne.symm hab))
      positivity
  · intro r hr
    have e := quadSum_map (edgeQuadrature sol d) (fun x => (a + b) / 2 + (b - a) / 2 * x) (|b - a| / 2) (fun x => r.eval x)
    have e1 : integrateCell sol a b d =
        (edgeQuadrature sol d).map fun q => ((a + b) / 2 + (b - a) / 2 * q.1, |b - a| / 2 * q.2) := by
      refine List.map_congr_left fun q _ => ?_
      rw [Prod.mk.injEq]
      constructor <;> ring
    rw [e1, e]
    have e2 : ∀ x, r.eval ((a + b) / 2 + (b - a) / 2 * x) = (r.comp (aff a b)).eval x := by
      intro x; rw [eval_comp, aff_eval]
    simp only [e2]
    rw [(c156_edge sol hs d).2.2 _ (comp_natDegree hr a b)]
    have e3 := integral_comp_aff r a b
    rcases le_total a b with h | h
    · rw [min_eq_left h, max_eq_right h, e3, abs_of_nonneg (by linarith)]
    · rw [min_eq_right h, max_eq_left h, intervalIntegral.integral_symm a b, e3, abs_of_nonpos (by linarith)]
      ring

/-- C156. Integration on a face is evaluation. -/
theorem c156_face (x : ℝ) (d : ℕ) (f : ℝ → ℝ) : quadSum (integrateFace x d) f = f x := by
  simp [quadSum, integrateFace]

/-- Symmetric eigenvalue problems can be solved. -/
theorem solver_exists : ∃ sol : Solver, SolvesSymmetric sol := by
  classical
  have key : ∀ (n : ℕ) (S : Matrix (Fin n) (Fin n) ℝ), ∃ p : Matrix (Fin n) (Fin n) ℝ × (Fin n → ℝ),
      (∀ i j, S i j = S j i) → IsSpectral S p.1 p.2 := by
    intro n S
    by_cases hS : ∀ i j, S i j = S j i
    · have hA : S.IsHermitian := by
        ext i j
        simp [Matrix.conjTranspose_apply, hS i j]
      let U : Matrix (Fin n) (Fin n) ℝ := (hA.eigenvectorUnitary : Matrix (Fin n) (Fin n) ℝ)
      have hU1 : U * star U = 1 := Unitary.coe_mul_star_self hA.eigenvectorUnitary
      have hU2 : star U * U = 1 := Unitary.coe_star_mul_self hA.eigenvectorUnitary
      refine ⟨(U, hA.eigenvalues), fun _ => ⟨?_, ?_, ?_⟩⟩
      · intro i k
        have h := congrFun (hA.mulVec_eigenvectorBasis k) i
        have e : ∀ j, U j k = hA.eigenvectorBasis k j := fun j => rfl
        simp only [e]
        have h' : ∑ j, S i j * hA.eigenvectorBasis k j = hA.eigenvalues k * hA.eigenvectorBasis k i := h
        rw [h']
        ring
      · intro i j
        have h := congrFun (congrFun hU1 i) j
        rw [Matrix.mul_apply, Matrix.one_apply] at h
        rw [← h]
        rfl
      · intro k l
        have h := congrFun (congrFun hU2 k) l
        rw [Matrix.mul_apply, Matrix.one_apply] at h
        rw [← h]
        rfl
    · exact ⟨(0, 0), fun h => absurd h hS⟩
  choose sol h using key
  exact ⟨sol, h⟩

example : ∃ sol : Solver, quadSum (integrateCell sol 2 5 11) (fun x => x ^ 11) = (5 ^ 12 - 2 ^ 12) / 12 := by
  obtain ⟨sol, hs⟩ := solver_exists
  refine ⟨sol, ?_⟩
  have h := (c156_cell sol hs 2 5 11).2.2 (X ^ 11) (by simp)
  simp only [eval_pow, eval_X] at h
  rw [h, min_eq_left (by norm_num), max_eq_right (by norm_num), integral_pow]
  norm_num

example : ∃ sol : Solver, (golubWelsch sol 100).length = 51 := by
  obtain ⟨sol, hs⟩ := solver_exists
  exact ⟨sol, (c156_golub_welsch sol hs 100).1⟩

example : ∃ sol : Solver, (edgeQuadrature sol 7).length = 4 := by
  obtain ⟨sol, hs⟩ := solver_exists
  exact ⟨sol, (c156_edge sol hs 7).1⟩

end Verif.Props.GolubWelsch
