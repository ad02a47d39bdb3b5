import Mathlib.LinearAlgebra.Matrix.NonsingularInverse
import Mathlib.LinearAlgebra.Matrix.ToLin
import Mathlib.LinearAlgebra.Matrix.Basis
import Mathlib.Algebra.Polynomial.Eval.Degree
import Mathlib.Algebra.Polynomial.Derivative
import Mathlib.Tactic.NormNum
import Mathlib.Tactic.FieldSimp
import Mathlib.Tactic.IntervalCases
import Verif.Lemmas.HhoRec
/-!
An instance of the hypotheses of the HHO theorems: an exact solver, and the segment `[0, 1]` with monomials, the
five-point Boole rule (exact up to degree 5) and its two end points as faces.
-/
namespace Verif.Lemmas.Hho
open Finset Verif.Hho Verif.Spec.Hho LocalMatrix

/-- A solver with the assumed property exists over every field. -/
theorem exists_solution {K : Type} [Field K] (n : Nat) (A : Mat K) (b : Nat → K) (h : Nonsing n A) :
    ∃ x : Nat → K, ∀ i < n, ∑ j ∈ range n, A i j * x j = b i := by
  let A' : Matrix (Fin n) (Fin n) K := fun i j => A i j
  have hinj : Function.Injective A'.mulVec := by
    intro x y e
    funext k
    have := h (fun j => if hj : j < n then x ⟨j, hj⟩ - y ⟨j, hj⟩ else 0) (fun i hi => by
      have e' := congrFun e ⟨i, hi⟩
      rw [Finset.sum_range]
      simp only [Matrix.mulVec, dotProduct] at e'
      simp only [Fin.is_lt, dite_true, Fin.eta, mul_sub, sum_sub_distrib]
      exact sub_eq_zero.2 e') k k.2
    simp only [Fin.is_lt, dite_true, Fin.eta] at this
    exact sub_eq_zero.1 this
  have hu : IsUnit A' := Matrix.mulVec_injective_iff_isUnit.1 hinj
  have hd : IsUnit A'.det := (Matrix.isUnit_iff_isUnit_det A').1 hu
  let y := A'⁻¹.mulVec fun i : Fin n => b i
  refine ⟨fun j => if hj : j < n then y ⟨j, hj⟩ else 0, fun i hi => ?_⟩
  have hy : A'.mulVec y = fun i : Fin n => b i := by
    rw [Matrix.mulVec_mulVec, Matrix.mul_nonsing_inv _ hd, Matrix.one_mulVec]
  have := congrFun hy ⟨i, hi⟩
  rw [Finset.sum_range]
  simp only [Fin.is_lt, dite_true, Fin.eta]
  exact this

open Classical in
/-- An exact solver. -/
noncomputable def exactSolver (K : Type) [Field K] : Solver K where
  solve n A b := if h : ∃ x : Nat → K, ∀ i < n, ∑ j ∈ range n, A i j * x j = b i then Classical.choose h else fun _ => 0
  solves n A b _ hn i hi := by
    have h := exists_solution n A b hn
    rw [dif_pos h]
    exact Classical.choose_spec h i hi

/-- Monomials on a line. -/
def lineBasis (k : Nat) : Basis ℚ ℚ := ⟨k + 1, fun x i => x ^ i, fun x i _ => i * x ^ (i - 1)⟩

/-- The segment `[0, 1]` with Boole's rule. -/
def segCell : Elem ℚ ℚ :=
  ⟨lineBasis, fun _ => [⟨0, 7 / 90⟩, ⟨1 / 4, 32 / 90⟩, ⟨1 / 2, 12 / 90⟩, ⟨3 / 4, 32 / 90⟩, ⟨1, 7 / 90⟩], 1⟩

/-- An end point as a face. -/
def endPoint (a n h : ℚ) : Face ℚ ℚ := ⟨⟨fun _ => ⟨1, fun _ _ => 1, fun _ _ _ => 0⟩, fun _ => [⟨a, 1⟩], h⟩, fun _ => n⟩

/-- The two end points with their outer normals. -/
def segFaces : List (Face ℚ ℚ) := [endPoint 0 (-1) 1, endPoint 1 1 1]

open Polynomial in
/-- Polynomial functions of bounded degree on the line. -/
def lineV (k : Nat) : Submodule ℚ (ℚ → ℚ) where
  carrier := {f | ∃ p : ℚ[X], p.natDegree ≤ k ∧ ∀ x, f x = p.eval x}
  add_mem' := by
    rintro f g ⟨p, hp, hp'⟩ ⟨q, hq, hq'⟩
    exact ⟨p + q, (natDegree_add_le _ _).trans (max_le hp hq), fun x => by simp [hp', hq']⟩
  zero_mem' := ⟨0, by simp, fun x => by simp⟩
  smul_mem' := by
    rintro a f ⟨p, hp, hp'⟩
    exact ⟨C a * p, (natDegree_C_mul_le _ _).trans hp, fun x => by simp [hp']⟩

/-- A quadrature rule as a linear functional. -/
def quadLin (qs : List (QP ℚ ℚ)) : (ℚ → ℚ) →ₗ[ℚ] ℚ where
  toFun := quad qs
  map_add' u v := quad_add qs u v
  map_smul' a v := quad_mul qs a v

theorem lineFn_mem {k i : Nat} (hi : i ≤ k) : (fun x : ℚ => x ^ i) ∈ lineV k :=
  ⟨Polynomial.X ^ i, by simpa using hi, fun x => by simp⟩

theorem lineV_span {k : Nat} {v : ℚ → ℚ} (hv : v ∈ lineV k) : ∃ c, ∀ x, v x = evalFn (lineBasis k) c x := by
  obtain ⟨p, hp, hp'⟩ := hv
  refine ⟨p.coeff, fun x => ?_⟩
  rw [hp', Polynomial.eval_eq_sum_range' (Nat.lt_succ_of_le hp)]
  rfl

/-- The polynomial spaces of the segment. -/
def segPoly : PolyCell 1 segCell segFaces 5 where
  V := lineV
  mono := by
    rintro m n h f ⟨p, hp, hp'⟩
    exact ⟨p, hp.trans h, hp'⟩
  mul := by
    rintro m n f g ⟨p, hp, hp'⟩ ⟨q, hq, hq'⟩
    exact ⟨p * q, Polynomial.natDegree_mul_le.trans (Nat.add_le_add hp hq), fun x => by simp [hp', hq']⟩
  IT := quadLin (segCell.integrate 0)
  IF f := quadLin (f.integrate 0)
  on f := {x | x ∈ (f.integrate 0).map (·.pt)}
  cell_exact _ _ _ _ := rfl
  cell_mem k i hi := lineFn_mem (Nat.le_of_lt_succ hi)
  cell_span k v hv := lineV_span hv
  cell_pos k := Nat.succ_pos k
  cell_one k x := pow_zero x
  grad_mem k i hi c hc := by
    have hi' : i < k + 1 := hi
    refine ⟨Polynomial.C (i : ℚ) * Polynomial.X ^ (i - 1), ?_, fun x => ?_⟩
    · refine (Polynomial.natDegree_C_mul_X_pow_le _ _).trans (by omega)
    · simp [segCell, lineBasis]
  grad_one k x c := by simp [segCell, lineBasis]
  face_pts f hf n q hq := by
    simp only [segFaces, List.mem_cons, List.not_mem_nil, or_false] at hf
    rcases hf with rfl | rfl <;> exact List.mem_map_of_mem hq
  face_congr f hf u v h := quad_congr fun q hq => h q.pt (List.mem_map_of_mem hq)
  face_exact f hf n _ v _ := by
    simp only [segFaces, List.mem_cons, List.not_mem_nil, or_false] at hf
    rcases hf with rfl | rfl <;> rfl
  face_mem f hf k i hi := by
    refine ⟨fun x => x ^ 0, lineFn_mem (Nat.zero_le k), fun x _ => ?_⟩
    simp only [segFaces, List.mem_cons, List.not_mem_nil, or_false] at hf
    rcases hf with rfl | rfl <;> simp [endPoint]
  face_span f hf k v hv := by
    simp only [segFaces, List.mem_cons, List.not_mem_nil, or_false] at hf
    rcases hf with rfl | rfl
    · refine ⟨fun _ => v 0, fun x hx => ?_⟩
      simp [endPoint] at hx
      simp [evalFn, endPoint, hx]
    · refine ⟨fun _ => v 1, fun x hx => ?_⟩
      simp [endPoint] at hx
      simp [evalFn, endPoint, hx]

theorem segNested : Nested segCell := by
  intro m n h
  exact ⟨by simp [segCell, lineBasis]; exact h, fun i _ x => ⟨rfl, rfl⟩⟩

/-- Green's formula on the segment for quadratic reconstruction and linear cell unknowns. -/
theorem segGreen : Green segPoly none 2 1 := by
  intro i hi
  have hi : i < 2 := by
    have : i + 1 < 2 + 1 := hi
    omega
  refine ⟨fun _ => (i * (i + 1) : ℚ), ⟨Polynomial.C (i * (i + 1) : ℚ), (Polynomial.natDegree_C _).le, fun x => by simp⟩, fun k hk j hj => ?_⟩
  have hj : j < 3 := by
    rcases hk with rfl | rfl <;> simp [segCell, lineBasis] at hj <;> omega
  have hk' : (segCell.basis k).fn = fun x i => x ^ i := rfl
  have hk'' : (segCell.basis k).grad = fun x (i : Nat) _ => (i : ℚ) * x ^ (i - 1) := rfl
  rw [hk', hk'']
  interval_cases i <;> interval_cases j <;>
    simp [segPoly, quadLin, quad, segCell, segFaces, endPoint, lineBasis, rflux, flux, fluxN, tailRows, dot] <;> norm_num

theorem segNonsing : Nonsing 2 (lapLhs 1 none (segCell.basis 2) 2 segCell) := by
  intro x h j hj
  have h0 := h 0 (by omega)
  have h1 := h 1 (by omega)
  simp only [sum_range_succ, range_zero, sum_empty, lapLhs, accumDot_eq] at h0 h1
  simp [quad, segCell, lineBasis, rflux, flux, tailRows, dot] at h0 h1
  norm_num at h0 h1
  interval_cases j <;> linarith

theorem segMass : Nonsing 2 (mass segCell 1 (segCell.basis 1)) := by
  intro x h j hj
  have h0 := h 0 (by omega)
  have h1 := h 1 (by omega)
  simp only [sum_range_succ, range_zero, sum_empty, mass_eq] at h0 h1
  simp [quad, segCell, lineBasis] at h0 h1
  norm_num at h0 h1
  interval_cases j <;> linarith

theorem segFaceMass : ∀ g ∈ segFaces, ∀ n, Nonsing 1 (accum (g.integrate n) (g.basis 1).fn (g.basis 1).fn) := by
  intro g hg n x h j hj
  have h0 := h 0 (by omega)
  simp only [segFaces, List.mem_cons, List.not_mem_nil, or_false] at hg
  obtain rfl : j = 0 := by omega
  rcases hg with rfl | rfl <;> simpa [accum_eq, quad, endPoint] using h0

end Verif.Lemmas.Hho
