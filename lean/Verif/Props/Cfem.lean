import Verif.Lemmas.Cfem
import Mathlib.Algebra.BigOperators.Fin
/-!
First-order conforming elements on triangles: C103, C104.
-/
namespace Verif.Props.Cfem
open Verif.Spec Verif.Cfem Verif.Lemmas.Cfem Matrix

/-- C103. On a triangle of nonzero area `eval_basis` returns the barycentric coordinates of the point: they sum to
one, they reproduce the point, and no other triple does. -/
theorem c103_basis {p0 p1 p2 : P2 ℝ} (h : turn p0 p1 p2 ≠ 0) (pt : P2 ℝ) : ∃ b, basis p0 p1 p2 pt = some b ∧
    (b 0 + b 1 + b 2 = 1 ∧ b 0 * p0.x + b 1 * p1.x + b 2 * p2.x = pt.x ∧
      b 0 * p0.y + b 1 * p1.y + b 2 * p2.y = pt.y) ∧
    ∀ a : Fin 3 → ℝ, a 0 + a 1 + a 2 = 1 → a 0 * p0.x + a 1 * p1.x + a 2 * p2.x = pt.x →
      a 0 * p0.y + a 1 * p1.y + a 2 * p2.y = pt.y → a = b := by
  obtain ⟨b, e, h1, h2, h3⟩ := basis_some h pt
  exact ⟨b, e, ⟨h1, h2, h3⟩, fun a a1 a2 a3 => bary_unique h a1 a2 a3 h1 h2 h3⟩

/-- C103. The basis is nodal: at vertex `i` function `j` is one if `i = j` and zero otherwise. -/
theorem c103_nodal {p0 p1 p2 : P2 ℝ} (h : turn p0 p1 p2 ≠ 0) (i : Fin 3) :
    basis p0 p1 p2 (![p0, p1, p2] i) = some (Pi.single i 1) := by
  fin_cases i <;> exact basis_eq h (by simp [Pi.single_apply]) (by simp [Pi.single_apply]) (by simp [Pi.single_apply])

/-- C103. `eval_basis_grad` is the slope of the basis: the basis at `q` minus the basis at `p` is the gradient
times `q - p`. -/
theorem c103_grad {p0 p1 p2 : P2 ℝ} (h : turn p0 p1 p2 ≠ 0) : ∃ d, grad p0 p1 p2 = some d ∧
    ∀ p q bp bq, basis p0 p1 p2 p = some bp → basis p0 p1 p2 q = some bq →
      ∀ i, bq i - bp i = d i 0 * (q.x - p.x) + d i 1 * (q.y - p.y) := by
  have h' : den p0 p1 p2 ≠ 0 := by rwa [den_eq]
  refine ⟨_, by unfold grad; exact if_neg h', ?_⟩
  intro p q bp bq hp hq i
  unfold basis at hp hq
  simp only [if_neg h', Option.some.injEq] at hp hq
  subst hp hq
  fin_cases i <;> simp <;> field_simp <;> ring

/-- C103. On a triangle of zero area nothing is computed: every value divides by zero. -/
theorem c103_degenerate {p0 p1 p2 : P2 ℝ} (h : turn p0 p1 p2 = 0) (pt : P2 ℝ) :
    basis p0 p1 p2 pt = none ∧ grad p0 p1 p2 = none := by
  have h' : den p0 p1 p2 = 0 := by rwa [den_eq]
  simp [basis, grad, h']

/-- C104. `mass_matrix` gives the integral of the product of two functions of first degree from their values at the
vertices, whatever the orientation of the triangle. -/
theorem c104_mass {p0 p1 p2 : P2 ℝ} (h : turn p0 p1 p2 ≠ 0) : ∃ M, mass p0 p1 p2 = some M ∧
    ∀ c a b c' a' b', (fun i => affineFun c a b (![p0, p1, p2] i)) ⬝ᵥ M *ᵥ (fun i => affineFun c' a' b' (![p0, p1, p2] i)) =
      triInt p0 p1 p2 (fun p => affineFun c a b p * affineFun c' a' b' p) := by
  obtain ⟨M, e, hM⟩ := mass_eq h
  refine ⟨M, e, ?_⟩
  intro c a b c' a' b'
  rw [triInt_mul]
  simp only [dotProduct, mulVec, Fin.sum_univ_three, hM]
  simp
  ring

/-- C104. `stiffness_matrix` gives the integral of the product of the gradients. -/
theorem c104_stiffness {p0 p1 p2 : P2 ℝ} (h : turn p0 p1 p2 ≠ 0) : ∃ S, stiffness p0 p1 p2 = some S ∧
    ∀ c a b c' a' b', (fun i => affineFun c a b (![p0, p1, p2] i)) ⬝ᵥ S *ᵥ (fun i => affineFun c' a' b' (![p0, p1, p2] i)) =
      triInt p0 p1 p2 (fun _ => a * a' + b * b') := by
  obtain ⟨d, e, hx, hy⟩ := grad_some h
  refine ⟨_, by unfold stiffness; rw [measure_eq, e]; rfl, ?_⟩
  intro c a b c' a' b'
  rw [triInt_const]
  have key : (affineFun c a b p0 * d 0 0 + affineFun c a b p1 * d 1 0 + affineFun c a b p2 * d 2 0) *
      (affineFun c' a' b' p0 * d 0 0 + affineFun c' a' b' p1 * d 1 0 + affineFun c' a' b' p2 * d 2 0) +
      (affineFun c a b p0 * d 0 1 + affineFun c a b p1 * d 1 1 + affineFun c a b p2 * d 2 1) *
      (affineFun c' a' b' p0 * d 0 1 + affineFun c' a' b' p1 * d 1 1 + affineFun c' a' b' p2 * d 2 1) =
      a * a' + b * b' := by rw [hx, hx, hy, hy]
  rw [← key]
  simp only [dotProduct, mulVec, Fin.sum_univ_three, Matrix.mul_apply, Fin.sum_univ_two, Matrix.smul_apply,
    Matrix.transpose_apply, smul_eq_mul]
  simp only [Matrix.cons_val]
  ring

/-- C104. With a tensor, the gradient of the second function (the columns) is multiplied by the tensor, also when
the tensor is not symmetric. -/
theorem c104_stiffness_tensor {p0 p1 p2 : P2 ℝ} (h : turn p0 p1 p2 ≠ 0) (k : Matrix (Fin 2) (Fin 2) ℝ) :
    ∃ S, stiffnessK p0 p1 p2 k = some S ∧
    ∀ c a b c' a' b', (fun i => affineFun c a b (![p0, p1, p2] i)) ⬝ᵥ S *ᵥ (fun i => affineFun c' a' b' (![p0, p1, p2] i)) =
      triInt p0 p1 p2 (fun _ => a * (k 0 0 * a' + k 0 1 * b') + b * (k 1 0 * a' + k 1 1 * b')) := by
  obtain ⟨d, e, hx, hy⟩ := grad_some h
  refine ⟨_, by unfold stiffnessK; rw [measure_eq, e]; rfl, ?_⟩
  intro c a b c' a' b'
  rw [triInt_const]
  have key : (affineFun c a b p0 * d 0 0 + affineFun c a b p1 * d 1 0 + affineFun c a b p2 * d 2 0) *
      (k 0 0 * (affineFun c' a' b' p0 * d 0 0 + affineFun c' a' b' p1 * d 1 0 + affineFun c' a' b' p2 * d 2 0) +
       k 0 1 * (affineFun c' a' b' p0 * d 0 1 + affineFun c' a' b' p1 * d 1 1 + affineFun c' a' b' p2 * d 2 1)) +
      (affineFun c a b p0 * d 0 1 + affineFun c a b p1 * d 1 1 + affineFun c a b p2 * d 2 1) *
      (k 1 0 * (affineFun c' a' b' p0 * d 0 0 + affineFun c' a' b' p1 * d 1 0 + affineFun c' a' b' p2 * d 2 0) +
       k 1 1 * (affineFun c' a' b' p0 * d 0 1 + affineFun c' a' b' p1 * d 1 1 + affineFun c' a' b' p2 * d 2 1)) =
      a * (k 0 0 * a' + k 0 1 * b') + b * (k 1 0 * a' + k 1 1 * b') := by rw [hx, hx, hy, hy]
  rw [← key]
  simp only [dotProduct, mulVec, Fin.sum_univ_three, Matrix.mul_apply, Fin.sum_univ_two, Matrix.smul_apply,
    Matrix.transpose_apply, smul_eq_mul]
  simp only [Matrix.cons_val]
  ring

/-- C104. `make_rhs` is the integral against every function of first degree if the datum is constant. -/
theorem c104_rhs_const (p0 p1 p2 : P2 ℝ) (k : ℝ) : ∃ r, rhs p0 p1 p2 (fun _ => k) = some r ∧
    ∀ c a b, (fun i => affineFun c a b (![p0, p1, p2] i)) ⬝ᵥ r = triInt p0 p1 p2 (fun p => k * affineFun c a b p) := by
  refine ⟨_, by unfold rhs; rw [measure_eq]; rfl, ?_⟩
  intro c a b
  have e := triInt_mul p0 p1 p2 k 0 0 c a b
  have k' : ∀ p, affineFun k 0 0 p = k := fun p => by simp [affineFun]
  simp only [k'] at e
  rw [e]
  simp [dotProduct, Fin.sum_univ_three]
  ring

/-- C104. For a datum of first degree `make_rhs` has the right total, and its entry `i` differs from the integral
against the basis function of vertex `i` by a twelfth of the area times the difference between the value at the
vertex and the mean of the three. -/
theorem c104_rhs_affine {p0 p1 p2 : P2 ℝ} (h : turn p0 p1 p2 ≠ 0) (c a b : ℝ) :
    ∃ r, rhs p0 p1 p2 (affineFun c a b) = some r ∧
    r 0 + r 1 + r 2 = triInt p0 p1 p2 (affineFun c a b) ∧
    ∀ φ : P2 ℝ → Fin 3 → ℝ, (∀ p, basis p0 p1 p2 p = some (φ p)) → ∀ i,
      triInt p0 p1 p2 (fun p => affineFun c a b p * φ p i) - r i = |turn p0 p1 p2| / 2 / 12 *
        (affineFun c a b (![p0, p1, p2] i) - (affineFun c a b p0 + affineFun c a b p1 + affineFun c a b p2) / 3) := by
  refine ⟨_, by unfold rhs; rw [measure_eq]; rfl, ?_, ?_⟩
  · have e := triInt_mul p0 p1 p2 c a b 1 0 0
    have k' : ∀ p, affineFun 1 0 0 p = 1 := fun p => by simp [affineFun]
    simp only [k', mul_one] at e
    have e' : triInt p0 p1 p2 (affineFun c a b) = _ := e
    rw [e']
    simp only [Simplex.bary2, affineFun]; ring
  · intro φ hφ i
    obtain ⟨d, ed, hd⟩ := c103_grad h
    have lin : ∀ p, φ p i = affineFun (φ p0 i - d i 0 * p0.x - d i 1 * p0.y) (d i 0) (d i 1) p := fun p => by
      have := hd p0 p _ _ (hφ p0) (hφ p) i
      unfold affineFun; linarith
    have n : ∀ j, φ (![p0, p1, p2] j) i = if i = j then 1 else 0 := fun j => by
      have := (hφ _).symm.trans (c103_nodal h j)
      rw [Option.some.injEq] at this
      rw [this, Pi.single_apply]
    have n0 := n 0
    have n1 := n 1
    have n2 := n 2
    have e := triInt_mul p0 p1 p2 c a b (φ p0 i - d i 0 * p0.x - d i 1 * p0.y) (d i 0) (d i 1)
    simp only [← lin] at e
    rw [e]
    simp only [Matrix.cons_val_zero, Matrix.cons_val_one, Matrix.cons_val] at n0 n1 n2
    rw [n0, n1, n2]
    fin_cases i <;> simp [Simplex.bary2, affineFun] <;> ring

/-- Non-vacuity: a triangle of the plane; the mass matrix of the unit triangle has `1/12` on the diagonal. -/
example : turn (⟨0, 0⟩ : P2 ℝ) ⟨1, 0⟩ ⟨0, 1⟩ ≠ 0 := by simp [turn]
example : ∃ M, mass ⟨0, 0⟩ ⟨1, 0⟩ ⟨0, 1⟩ = some M ∧ M 0 0 = 1 / 12 := by
  obtain ⟨M, e, h⟩ := mass_eq (p0 := ⟨0, 0⟩) (p1 := ⟨1, 0⟩) (p2 := ⟨0, 1⟩) (by simp [turn])
  exact ⟨M, e, by rw [h]; simp [turn]; norm_num⟩
example : turn (⟨0, 0⟩ : P2 ℝ) ⟨1, 1⟩ ⟨2, 2⟩ = 0 := by simp [turn]

end Verif.Props.Cfem
