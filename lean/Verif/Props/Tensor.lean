import Verif.Lemmas.Tensor
import Mathlib.Algebra.Order.Field.Rat
/-!
C45: the algebra of fourth-order tensors stored as matrices.
-/
namespace Verif.Props.TensorAlg
open Verif Verif.Spec Verif.Tensor Finset
variable {K : Type} [Field K] {D : Nat}

/-- C45: `coeff` reads the coefficients, throws exactly on indices outside `[0, DIM)`, and two tensors with the same
coefficients are equal. -/
theorem c45_coeff (A : Tens K D) :
    (∀ i j k l : Fin D, coeff A i.val j.val k.val l.val = .ok (coeffs A i j k l)) ∧
    (∀ i j k l : Int, (coeff A i j k l).Throws ↔
      ¬ (0 ≤ i ∧ i < D ∧ 0 ≤ j ∧ j < D ∧ 0 ≤ k ∧ k < D ∧ 0 ≤ l ∧ l < D)) ∧
    (∀ B : Tens K D, coeffs A = coeffs B → A = B) := by
  refine ⟨fun i j k l => ?_, fun i j k l => ?_, fun B h => ?_⟩
  · unfold coeff; rw [indices_ok ⟨i, j, k, l⟩]; rfl
  · rw [← indices_throws]
    unfold coeff
    cases indices D i j k l <;> simp [Outcome.bind, Outcome.Throws]
  · exact ext_get fun t => congrFun (congrFun (congrFun (congrFun h t.i) t.j) t.k) t.l

example : (coeff (fun _ _ => 0 : Tens ℚ 3) 0 3 0 0).Throws ∧ (coeff (fun _ _ => 0 : Tens ℚ 3) 0 0 (-1) 0).Throws := by
  decide

/-- C45: writing a coefficient and reading it back returns the value; the other coefficients are unchanged; writing
outside the range throws. -/
theorem c45_write (A : Tens K D) (v : K) :
    (∀ i j k l : Fin D, ∃ B, setCoeff A i.val j.val k.val l.val v = .ok B ∧ coeffs B i j k l = v ∧
      ∀ i' j' k' l', (i', j', k', l') ≠ (i, j, k, l) → coeffs B i' j' k' l' = coeffs A i' j' k' l') ∧
    (∀ i j k l : Int, (setCoeff A i j k l v).Throws ↔
      ¬ (0 ≤ i ∧ i < D ∧ 0 ≤ j ∧ j < D ∧ 0 ≤ k ∧ k < D ∧ 0 ≤ l ∧ l < D)) := by
  refine ⟨fun i j k l => ?_, fun i j k l => ?_⟩
  · refine ⟨_, by unfold setCoeff; rw [indices_ok ⟨i, j, k, l⟩]; rfl, ?_, ?_⟩
    · unfold coeffs; rw [get_set, if_pos rfl]
    · intro i' j' k' l' h
      unfold coeffs
      rw [get_set, if_neg]
      intro e
      injection e with e1 e2 e3 e4
      exact h (by rw [e1, e2, e3, e4])
  · rw [← indices_throws]
    unfold setCoeff
    cases indices D i j k l <;> simp [Outcome.bind, Outcome.Throws]

/-- C45: `tm_prod(tens, mat)` is `A_ijkl M_kl`. -/
theorem c45_tm_prod (A : Tens K D) (M : Mat K D) : tmProd A M = (coeffs A).act M := rfl

/-- C45: `tm_prod(mat, tens)` is `M_kl A_klij`: the action of the transposed tensor. -/
theorem c45_mt_prod (junk A : Tens K D) (M : Mat K D) :
    (∀ i j, mtProd M A i j = ∑ k, ∑ l, M k l * coeffs A k l i j) ∧
      mtProd M A = tmProd (transpose junk A) M := by
  refine ⟨fun i j => rfl, ?_⟩
  funext i j
  show _ = ∑ k, ∑ l, get (transpose junk A) ⟨i, j, k, l⟩ * M k l
  unfold transpose mtProd
  refine sum_congr rfl fun k _ => sum_congr rfl fun l _ => ?_
  rw [get_fill (fun t => get A ⟨t.k, t.l, t.i, t.j⟩), mul_comm]

/-- C45: the optimised product agrees with the plain one on matrices with one non-zero entry. -/
theorem c45_tm_prod_at (A : Tens K D) (M : Mat K D) (row col : Fin D)
    (h : ∀ i j, (i, j) ≠ (row, col) → M i j = 0) : tmProdAt A M row col = tmProd A M := by
  funext i j
  rw [c45_tm_prod]
  unfold tmProdAt Tensor4.act
  rw [sum_eq_single row, sum_eq_single col]
  · rw [mul_comm]; rfl
  · intro l _ hl
    rw [h row l (by simp [hl]), mul_zero]
  · simp
  · intro k _ hk
    refine sum_eq_zero fun l _ => ?_
    rw [h k l (by simp [hk]), mul_zero]
  · simp

example : ∀ i j : Fin 2, (i, j) ≠ (1, 0) → (fun i j => if i = 1 ∧ j = 0 then 5 else 0 : Mat ℚ 2) i j = 0 := by decide

/-- C45: `ContractedProduct` is `A_ijpq B_pqkl`; it is associative and is the composition of actions. -/
theorem c45_contracted (A B C : Tens K D) (M : Mat K D) :
    coeffs (contracted A B) = (coeffs A).comp (coeffs B) ∧
      contracted (contracted A B) C = contracted A (contracted B C) ∧
      tmProd (contracted A B) M = tmProd A (tmProd B M) := by
  refine ⟨?_, ?_, ?_⟩
  · funext i j k l
    exact get_contracted A B ⟨i, j, k, l⟩
  · apply ext_get
    intro t
    simp only [get_contracted, sum_mul, mul_sum, mul_assoc]
    have sw : ∀ f : Fin D → Fin D → Fin D → Fin D → K,
        ∑ p, ∑ q, ∑ r, ∑ s, f p q r s = ∑ r, ∑ s, ∑ p, ∑ q, f p q r s := by
      intro f
      calc _ = ∑ p, ∑ r, ∑ q, ∑ s, f p q r s := sum_congr rfl fun p _ => sum_comm
        _ = ∑ r, ∑ p, ∑ q, ∑ s, f p q r s := sum_comm
        _ = ∑ r, ∑ p, ∑ s, ∑ q, f p q r s := sum_congr rfl fun r _ => sum_congr rfl fun p _ => sum_comm
        _ = _ := sum_congr rfl fun r _ => sum_comm
    exact sw _
  · funext i j
    rw [c45_tm_prod, c45_tm_prod, c45_tm_prod]
    unfold Tensor4.act coeffs
    simp only [get_contracted, sum_mul, mul_sum, mul_assoc]
    calc _ = ∑ k, ∑ p, ∑ l, ∑ q, get A ⟨i, j, p, q⟩ * (get B ⟨p, q, k, l⟩ * M k l) :=
          sum_congr rfl fun k _ => sum_comm
      _ = ∑ p, ∑ k, ∑ l, ∑ q, get A ⟨i, j, p, q⟩ * (get B ⟨p, q, k, l⟩ * M k l) := sum_comm
      _ = ∑ p, ∑ k, ∑ q, ∑ l, get A ⟨i, j, p, q⟩ * (get B ⟨p, q, k, l⟩ * M k l) :=
          sum_congr rfl fun p _ => sum_congr rfl fun k _ => sum_comm
      _ = _ := sum_congr rfl fun p _ => sum_comm

/-- C45: `Kronecker(A, B)_ijkl = A_ij B_kl`; it maps `M` to `(B : M) A`. -/
theorem c45_kronecker (A B M : Mat K D) :
    (∀ i j k l, coeffs (kronecker A B) i j k l = A i j * B k l) ∧
      ∀ i j, tmProd (kronecker A B) M i j = inner B M * A i j := by
  refine ⟨fun i j k l => get_kronecker A B ⟨i, j, k, l⟩, fun i j => ?_⟩
  show ∑ k, ∑ l, get (kronecker A B) ⟨i, j, k, l⟩ * M k l = _
  simp only [get_kronecker, inner, sum_mul]
  exact sum_congr rfl fun k _ => sum_congr rfl fun l _ => by ring

/-- C45: `ProductSup_ijkl = A_ik B_jl`, which maps `M` to `A M Bᵀ`. -/
theorem c45_product_sup (A B M : Mat K D) :
    (∀ i j k l, coeffs (productSup A B) i j k l = A i k * B j l) ∧
      ∀ i j, tmProd (productSup A B) M i j = ∑ k, ∑ l, A i k * M k l * B j l := by
  have g : ∀ t : Idx D, get (productSup A B) t = A t.i t.k * B t.j t.l := fun t => get_fill _ _ t
  refine ⟨fun i j k l => g ⟨i, j, k, l⟩, fun i j => ?_⟩
  show ∑ k, ∑ l, get (productSup A B) ⟨i, j, k, l⟩ * M k l = _
  simp only [g]
  exact sum_congr rfl fun k _ => sum_congr rfl fun l _ => by ring

/-- C45: `ProductInf_ijkl = A_il B_jk`, which maps `M` to `A Mᵀ Bᵀ`. -/
theorem c45_product_inf (A B M : Mat K D) :
    (∀ i j k l, coeffs (productInf A B) i j k l = A i l * B j k) ∧
      ∀ i j, tmProd (productInf A B) M i j = ∑ k, ∑ l, A i l * M k l * B j k := by
  have g : ∀ t : Idx D, get (productInf A B) t = A t.i t.l * B t.j t.k := fun t => get_fill _ _ t
  refine ⟨fun i j k l => g ⟨i, j, k, l⟩, fun i j => ?_⟩
  show ∑ k, ∑ l, get (productInf A B) ⟨i, j, k, l⟩ * M k l = _
  simp only [g]
  exact sum_congr rfl fun k _ => sum_congr rfl fun l _ => by ring

/-- C45: `Odot` is the half sum of `ProductSup` and `ProductInf`; it has the minor symmetry in its last two indices. -/
theorem c45_odot (A B : Mat K D) (i j k l : Fin D) :
    coeffs (odot A B) i j k l = (coeffs (productSup A B) i j k l + coeffs (productInf A B) i j k l) / 2 ∧
      coeffs (odot A B) i j k l = coeffs (odot A B) i j l k := by
  have g : ∀ t : Idx D, get (odot A B) t = (A t.i t.k * B t.j t.l + A t.i t.l * B t.j t.k) / 2 :=
    fun t => get_fill _ _ t
  have h1 := (c45_product_sup A B A).1 i j k l
  have h2 := (c45_product_inf A B A).1 i j k l
  refine ⟨?_, ?_⟩
  · rw [h1, h2]; exact g _
  · unfold coeffs; rw [g, g]; ring

/-- C45: `transpose` exchanges the pairs of indices, whatever the uninitialised result contained, and is an
involution. -/
theorem c45_transpose (junk junk' A : Tens K D) :
    (∀ i j k l, coeffs (transpose junk A) i j k l = coeffs A k l i j) ∧ transpose junk (transpose junk' A) = A := by
  have g : ∀ (junk A : Tens K D) (t : Idx D), get (transpose junk A) t = get A ⟨t.k, t.l, t.i, t.j⟩ :=
    fun junk A t => get_fill (fun t => get A ⟨t.k, t.l, t.i, t.j⟩) _ t
  exact ⟨fun i j k l => g _ _ _, ext_get fun t => by rw [g, g]⟩

/-- C45: `IdentityTensor4` maps every matrix to itself (dimensions 1, 2 and 3). -/
theorem c45_identity (hD : D = 1 ∨ D = 2 ∨ D = 3) (M : Mat K D) : tmProd (identity K D) M = M := by
  funext i j
  show ∑ k, ∑ l, get (identity K D) ⟨i, j, k, l⟩ * M k l = _
  simp only [get_identity hD, ite_and, ite_mul, one_mul, zero_mul]
  simp

/-- C45: `IdentitySymTensor4` maps every matrix to its symmetric part (dimensions 1, 2 and 3). -/
theorem c45_identity_sym (h2 : (2 : K) ≠ 0) (hD : D = 1 ∨ D = 2 ∨ D = 3) (M : Mat K D) (i j : Fin D) :
    tmProd (identitySym K D) M i j = (M i j + M j i) / 2 := by
  show ∑ k, ∑ l, get (identitySym K D) ⟨i, j, k, l⟩ * M k l = _
  simp only [get_identitySym h2 hD, add_div, add_mul, sum_add_distrib]
  congr 1
  · simp only [ite_and, ite_div, ite_mul, zero_div, zero_mul]
    simp
    ring
  · simp only [ite_and, ite_div, ite_mul, zero_div, zero_mul]
    rw [sum_comm]
    simp
    ring

/-- C45: `IxI` maps `M` to its trace times the identity, in any dimension. -/
theorem c45_ixi (M : Mat K D) (i j : Fin D) :
    tmProd (ixi K D) M i j = if i = j then ∑ k, M k k else 0 := by
  show ∑ k, ∑ l, get (ixi K D) ⟨i, j, k, l⟩ * M k l = _
  simp only [get_ixi, ite_and, ite_mul, one_mul, zero_mul]
  split_ifs <;> simp

example : tmProd (identitySym ℚ 2) ![![1, 5], ![3, 2]] = ![![1, 4], ![4, 2]] := by decide +kernel

end Verif.Props.TensorAlg
