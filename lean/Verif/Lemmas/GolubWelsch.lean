import Verif.Lemmas.LegendreOrth
import Verif.Model.GolubWelsch
import Verif.Spec.Spectral
import Mathlib.Algebra.Algebra.Bilinear
import Mathlib.LinearAlgebra.Span.Basic
/-! The rule of Golub and Welsch integrates polynomials of degree less than twice the number of nodes. -/
namespace Verif.GolubWelsch
open Polynomial Verif.Spec Verif.Quad

/-- The entries of the matrix. -/
noncomputable def beta (i : ℕ) : ℝ := √(1 / (4 - 1 / ((i : ℝ) * i)))

theorem beta_sqrt (j : ℕ) : beta (j + 1) * √(2 * (j : ℝ) + 3) * √(2 * (j : ℝ) + 1) = (j : ℝ) + 1 := by
  have h : (1 / (4 - 1 / (((j + 1 : ℕ) : ℝ) * ((j + 1 : ℕ) : ℝ)))) =
      ((j : ℝ) + 1) ^ 2 / ((2 * (j : ℝ) + 3) * (2 * (j : ℝ) + 1)) := by
    push_cast
    have h1 : ((j : ℝ) + 1) ≠ 0 := by positivity
    have h2 : (2 * (j : ℝ) + 3) * (2 * (j : ℝ) + 1) ≠ 0 := by positivity
    have h3 : 4 - 1 / (((j : ℝ) + 1) * ((j : ℝ) + 1)) = (2 * (j : ℝ) + 3) * (2 * (j : ℝ) + 1) / ((j : ℝ) + 1) ^ 2 := by
      field_simp
      ring
    rw [h3, one_div_div]
  rw [beta, h, Real.sqrt_div (by positivity), Real.sqrt_sq (by positivity), Real.sqrt_mul (by positivity)]
  have h1 : √(2 * (j : ℝ) + 3) ≠ 0 := (Real.sqrt_pos.2 (by positivity)).ne'
  have h2 : √(2 * (j : ℝ) + 1) ≠ 0 := (Real.sqrt_pos.2 (by positivity)).ne'
  field_simp

theorem beta_ne (j : ℕ) : beta (j + 1) ≠ 0 := by
  intro h
  have := beta_sqrt j
  rw [h] at this
  have : (0 : ℝ) < (j : ℝ) + 1 := by positivity
  linarith

/-- Normalised Legendre polynomials. -/
noncomputable def q (j : ℕ) : ℝ[X] := C (√(2 * (j : ℝ) + 1)) * P j

theorem X_q_zero : X * q 0 = C (beta 1) * q 1 := by
  have h := beta_sqrt 0
  norm_num at h
  simp only [q, P]
  have h1 : √(2 * ((0 : ℕ) : ℝ) + 1) = 1 := by norm_num
  have h2 : √(2 * ((1 : ℕ) : ℝ) + 1) = √3 := by norm_num
  rw [h1, h2, C_1, ← mul_assoc (C (beta 1)), ← C_mul, h, C_1]
  ring

theorem X_q (j : ℕ) : X * q (j + 1) = C (beta (j + 2)) * q (j + 2) + C (beta (j + 1)) * q j := by
  have hs : √(2 * ((j + 1 : ℕ) : ℝ) + 1) ≠ 0 := (Real.sqrt_pos.2 (by positivity)).ne'
  refine mul_left_cancel₀ (C_ne_zero.2 hs) ?_
  have h0 := beta_sqrt j
  have h1 := beta_sqrt (j + 1)
  have e1 : 2 * ((j + 1 : ℕ) : ℝ) + 1 = 2 * (j : ℝ) + 3 := by push_cast; ring
  have e2 : 2 * ((j + 2 : ℕ) : ℝ) + 1 = 2 * ((j + 1 : ℕ) : ℝ) + 3 := by push_cast; ring
  have e3 : √(2 * ((j + 1 : ℕ) : ℝ) + 1) * √(2 * ((j + 1 : ℕ) : ℝ) + 1) = 2 * (j : ℝ) + 3 := by
    rw [Real.mul_self_sqrt (by positivity), e1]
  have hr := P_rec j
  simp only [q]
  rw [e2]
  rw [← e1] at h0
  have c0 := congrArg (C : ℝ → ℝ[X]) h0
  have c1 := congrArg (C : ℝ → ℝ[X]) h1
  have c3 := congrArg (C : ℝ → ℝ[X]) e3
  simp only [map_add, map_mul, map_natCast, map_one, map_ofNat, Nat.cast_add, Nat.cast_one] at c0 c1 c3 ⊢
  linear_combination X * P (j + 1) * c3 - hr - P (j + 2) * c1 - P j * c0

theorem I_q (i j : ℕ) : I (q i * q j) = if i = j then 2 else 0 := by
  have e : q i * q j = C (√(2 * (i : ℝ) + 1) * √(2 * (j : ℝ) + 1)) * (P i * P j) := by
    simp only [q, C_mul]
    ring
  rw [e, I_C]
  split
  · next h =>
    subst h
    rw [Real.mul_self_sqrt (by positivity), P_norm]
  · next h => rw [P_orth _ _ h, mul_zero]

/-- The entries of the symmetric matrix. -/
noncomputable def entry (i j : ℕ) : ℝ := if j + 1 = i then beta i else if i + 1 = j then beta j else 0

theorem selfAdjoint_lower (n : ℕ) (i j : Fin n) : selfAdjoint (lower n) i j = entry i j := by
  unfold selfAdjoint lower entry beta
  by_cases h : j ≤ i
  · have : j.val ≤ i.val := h
    rw [if_pos h]
    by_cases h1 : j.val + 1 = i.val
    · rw [if_pos h1, if_pos h1]
    · rw [if_neg h1, if_neg h1, if_neg (by omega)]
  · have : i.val < j.val := not_le.1 h
    rw [if_neg h, if_neg (show ¬ j.val + 1 = i.val by omega)]

theorem I_X_q (i j : ℕ) : I (X * q i * q j) = 2 * entry i j := by
  cases i with
  | zero =>
    rw [X_q_zero, mul_assoc, I_C, I_q, entry, if_neg (show ¬ j + 1 = 0 by omega), zero_add]
    by_cases h : 1 = j
    · subst h
      rw [if_pos rfl, if_pos rfl]
      ring
    · rw [if_neg h, if_neg h]
      ring
  | succ i =>
    rw [X_q, add_mul, mul_assoc, mul_assoc, I_add, I_C, I_C, I_q, I_q, entry]
    by_cases h : j = i
    · subst h
      rw [if_neg (by omega), if_pos rfl, if_pos rfl]
      ring
    · rw [if_neg (show ¬ i = j from fun h' => h h'.symm), if_neg (show ¬ j + 1 = i + 1 by omega)]
      by_cases h2 : i + 2 = j
      · subst h2
        rw [if_pos rfl, if_pos rfl]
        ring
      · rw [if_neg h2, if_neg h2]
        ring

section
variable {N : ℕ} {V : Matrix (Fin N) (Fin N) ℝ} {lam : Fin N → ℝ}

/-- The rows of the eigenvalue equation. -/
theorem row_sum (hN : 0 < N) (v : ℕ → ℝ) (l : ℝ)
    (h : ∀ j < N, ∑ m ∈ Finset.range N, entry j m * v m = v j * l) :
    ∀ j < N, v j = (q j).eval l * v 0 := by
  have h0 : 1 < N → beta 1 * v 1 = v 0 * l := by
    intro h1
    rw [← h 0 hN]
    rw [Finset.sum_eq_single 1]
    · rw [entry, if_neg (by omega), if_pos (by omega)]
    · intro m _ hm
      rw [entry, if_neg (by omega), if_neg (by omega), zero_mul]
    · intro hm
      exact absurd (Finset.mem_range.2 h1) hm
  have hs : ∀ j, j + 2 < N → beta (j + 2) * v (j + 2) + beta (j + 1) * v j = v (j + 1) * l := by
    intro j hj
    rw [← h (j + 1) (by omega)]
    have hp : ∑ m ∈ Finset.range N, entry (j + 1) m * v m = ∑ m ∈ ({j + 2, j} : Finset ℕ), entry (j + 1) m * v m := by
      symm
      refine Finset.sum_subset ?_ ?_
      · intro m hm
        simp only [Finset.mem_insert, Finset.mem_singleton] at hm
        exact Finset.mem_range.2 (by omega)
      · intro m _ hm
        simp only [Finset.mem_insert, Finset.mem_singleton, not_or] at hm
        rw [entry, if_neg (by omega), if_neg (by omega), zero_mul]
    rw [hp, Finset.sum_pair (by omega), entry, entry, if_neg (by omega), if_pos (by omega), if_pos rfl]
  have hq0 : (q 0).eval l = 1 := by simp [q, P]
  have hpair : ∀ j, (j < N → v j = (q j).eval l * v 0) ∧ (j + 1 < N → v (j + 1) = (q (j + 1)).eval l * v 0) := by
    intro j
    induction j with
    | zero =>
      refine ⟨fun _ => by rw [hq0, one_mul], fun h1 => ?_⟩
      have e := congrArg (eval l) X_q_zero
      simp only [eval_mul, eval_X, eval_C, hq0, mul_one] at e
      refine mul_left_cancel₀ (beta_ne 0) ?_
      rw [zero_add, h0 h1]
      linear_combination v 0 * e
    | succ j ih =>
      refine ⟨ih.2, fun h2 => ?_⟩
      have e := congrArg (eval l) (X_q j)
      simp only [eval_mul, eval_add, eval_X, eval_C] at e
      refine mul_left_cancel₀ (beta_ne (j + 1)) ?_
      have := hs j h2
      rw [ih.1 (by omega), ih.2 (by omega)] at this
      linear_combination this + v 0 * e
  exact fun j hj => (hpair j).1 hj

theorem component (h : IsSpectral (selfAdjoint (lower N)) V lam) (hN : 0 < N) (i k : Fin N) :
    V i k = (q i).eval (lam k) * V ⟨0, hN⟩ k := by
  have h2 := row_sum hN (fun m => if hm : m < N then V ⟨m, hm⟩ k else 0) (lam k) (by
    intro j hj
    have := h.vec ⟨j, hj⟩ k
    simp only [dif_pos hj]
    rw [← this, ← Fin.sum_univ_eq_sum_range (fun m => entry j m * (if hm : m < N then V ⟨m, hm⟩ k else 0))]
    refine Finset.sum_congr rfl fun m _ => ?_
    rw [selfAdjoint_lower, dif_pos m.2])
  have := h2 i i.2
  simpa only [dif_pos i.2, dif_pos hN, Fin.eta] using this

/-- Value of the rule. -/
noncomputable def L (V0 lam : Fin N → ℝ) : ℝ[X] →ₗ[ℝ] ℝ where
  toFun r := ∑ k, 2 * V0 k ^ 2 * r.eval (lam k)
  map_add' r s := by simp only [eval_add, mul_add, Finset.sum_add_distrib]
  map_smul' c r := by
    simp only [eval_smul, smul_eq_mul, RingHom.id_apply, Finset.mul_sum]
    exact Finset.sum_congr rfl fun k _ => by ring

/-- The integral as a linear map. -/
noncomputable def Iₗ : ℝ[X] →ₗ[ℝ] ℝ where
  toFun := I
  map_add' := I_add
  map_smul' c r := by rw [smul_eq_C_mul, I_C, RingHom.id_apply, smul_eq_mul]

theorem exact_q (h : IsSpectral (selfAdjoint (lower N)) V lam) (hN : 0 < N) (i j : ℕ) (hi : i < N) (hj : j < N) :
    (L (V ⟨0, hN⟩) lam - Iₗ) (q i * q j) = 0 ∧ (L (V ⟨0, hN⟩) lam - Iₗ) (X * q i * q j) = 0 := by
  have hc := component h hN
  have e : ∀ k, 2 * V ⟨0, hN⟩ k ^ 2 * ((q i).eval (lam k) * (q j).eval (lam k)) = 2 * (V ⟨i, hi⟩ k * V ⟨j, hj⟩ k) := by
    intro k
    rw [hc ⟨i, hi⟩ k, hc ⟨j, hj⟩ k]
    ring
  constructor
  · rw [LinearMap.sub_apply]
    change (∑ k, 2 * V ⟨0, hN⟩ k ^ 2 * (q i * q j).eval (lam k)) - I (q i * q j) = 0
    rw [I_q]
    simp only [eval_mul, e]
    rw [← Finset.mul_sum, h.row]
    simp only [Fin.mk.injEq]
    split <;> simp
  · rw [LinearMap.sub_apply]
    change (∑ k, 2 * V ⟨0, hN⟩ k ^ 2 * (X * q i * q j).eval (lam k)) - I (X * q i * q j) = 0
    rw [I_X_q]
    have e2 : ∀ k, 2 * V ⟨0, hN⟩ k ^ 2 * (X * q i * q j).eval (lam k) =
        ∑ m : Fin N, 2 * (entry i m * (V m k * V ⟨j, hj⟩ k)) := by
      intro k
      simp only [eval_mul, eval_X]
      have := h.vec ⟨i, hi⟩ k
      have e3 : ∑ m : Fin N, 2 * (entry i m * (V m k * V ⟨j, hj⟩ k)) = 2 * ((∑ m : Fin N, entry i m * V m k) * V ⟨j, hj⟩ k) := by
        rw [Finset.sum_mul, Finset.mul_sum]
        exact Finset.sum_congr rfl fun m _ => by ring
      simp only [selfAdjoint_lower] at this
      rw [e3, this]
      linear_combination lam k * e k
    simp only [e2]
    rw [Finset.sum_comm]
    have e4 : ∀ m : Fin N, ∑ k, 2 * (entry i m * (V m k * V ⟨j, hj⟩ k)) = 2 * (entry i m * if m = ⟨j, hj⟩ then 1 else 0) := by
      intro m
      rw [← h.row, Finset.mul_sum, Finset.mul_sum]
    simp only [e4, mul_ite, mul_one, mul_zero]
    rw [Finset.sum_ite_eq' Finset.univ, if_pos (Finset.mem_univ _)]
    simp

/-- The span of the first `n` polynomials. -/
noncomputable def W (n : ℕ) : Submodule ℝ ℝ[X] := Submodule.span ℝ {r | ∃ j < n, r = q j}

theorem q_mem {j n : ℕ} (h : j < n) : q j ∈ W n := Submodule.subset_span ⟨j, h, rfl⟩

theorem X_mem {n : ℕ} {r : ℝ[X]} (h : r ∈ W n) : X * r ∈ W (n + 1) := by
  have : W n ≤ (W (n + 1)).comap (LinearMap.mulLeft ℝ X) := by
    refine Submodule.span_le.2 ?_
    rintro _ ⟨j, hj, rfl⟩
    change X * q j ∈ W (n + 1)
    cases j with
    | zero =>
      rw [X_q_zero, ← smul_eq_C_mul]
      exact Submodule.smul_mem _ _ (q_mem (by omega))
    | succ j =>
      rw [X_q, ← smul_eq_C_mul, ← smul_eq_C_mul]
      exact Submodule.add_mem _ (Submodule.smul_mem _ _ (q_mem (by omega))) (Submodule.smul_mem _ _ (q_mem (by omega)))
  exact this h

theorem W_mono {m n : ℕ} (h : m ≤ n) : W m ≤ W n :=
  Submodule.span_mono fun _ ⟨j, hj, e⟩ => ⟨j, by omega, e⟩

theorem pow_mem (i : ℕ) : (X : ℝ[X]) ^ i ∈ W (i + 1) := by
  induction i with
  | zero =>
    have : (X : ℝ[X]) ^ 0 = q 0 := by simp [q, P]
    rw [this]
    exact q_mem (by omega)
  | succ i ih =>
    rw [pow_succ']
    exact X_mem ih

theorem bilinear (D : ℝ[X] →ₗ[ℝ] ℝ) (h : ∀ i < N, ∀ j < N, D (q i * q j) = 0) (r s : ℝ[X]) (hr : r ∈ W N) (hs : s ∈ W N) :
    D (r * s) = 0 := by
  have h1 : ∀ i < N, W N ≤ LinearMap.ker (D ∘ₗ LinearMap.mulLeft ℝ (q i)) := by
    intro i hi
    refine Submodule.span_le.2 ?_
    rintro _ ⟨j, hj, rfl⟩
    exact h i hi j hj
  have h2 : W N ≤ LinearMap.ker (D ∘ₗ LinearMap.mulRight ℝ s) := by
    refine Submodule.span_le.2 ?_
    rintro _ ⟨i, hi, rfl⟩
    exact h1 i hi hs
  exact h2 hr

theorem exact_pow (h : IsSpectral (selfAdjoint (lower N)) V lam) (hN : 0 < N) (k : ℕ) (hk : k < 2 * N) :
    ∑ m, 2 * V ⟨0, hN⟩ m ^ 2 * lam m ^ k = mom k := by
  have hD : (L (V ⟨0, hN⟩) lam - Iₗ) (X ^ k) = 0 := by
    by_cases h1 : k < N
    · have := bilinear (N := N) (L (V ⟨0, hN⟩) lam - Iₗ) (fun i hi j hj => (exact_q h hN i j hi hj).1) (X ^ k) (X ^ 0)
        (W_mono (by omega) (pow_mem k)) (W_mono (by omega) (pow_mem 0))
      simpa using this
    · have := bilinear (N := N) ((L (V ⟨0, hN⟩) lam - Iₗ) ∘ₗ LinearMap.mulLeft ℝ X)
        (fun i hi j hj => by
          have := (exact_q h hN i j hi hj).2
          rw [mul_assoc] at this
          exact this) (X ^ (N - 1)) (X ^ (k - N))
        (W_mono (by omega) (pow_mem _)) (W_mono (by omega) (pow_mem _))
      have e : (X : ℝ[X]) * (X ^ (N - 1) * X ^ (k - N)) = X ^ k := by
        rw [← pow_add, ← pow_succ']
        congr 1
        omega
      rw [← e]
      exact this
  rw [LinearMap.sub_apply] at hD
  have h2 : ∑ m, 2 * V ⟨0, hN⟩ m ^ 2 * (X ^ k : ℝ[X]).eval (lam m) - I (X ^ k) = 0 := hD
  simp only [I, eval_pow, eval_X] at h2
  rw [integral_mom] at h2
  linarith

/-- Weights are positive. -/
theorem first_ne (h : IsSpectral (selfAdjoint (lower N)) V lam) (hN : 0 < N) (k : Fin N) : V ⟨0, hN⟩ k ≠ 0 := by
  intro h0
  have h1 := h.col k k
  rw [if_pos rfl] at h1
  have : ∀ i, V i k * V i k = 0 := by
    intro i
    rw [component h hN i k, h0]
    ring
  simp [this] at h1

/-- Nodes lie between -1 and 1. -/
theorem node_bound (h : IsSpectral (selfAdjoint (lower N)) V lam) (hN : 0 < N) (k : Fin N) :
    -1 ≤ lam k ∧ lam k ≤ 1 := by
  have hne := first_ne h hN
  -- a polynomial that vanishes at the other nodes
  let Q : ℝ[X] := ∑ j : Fin N, V j k • q j
  have hQ : Q ∈ W N := Submodule.sum_mem _ fun j _ => Submodule.smul_mem _ _ (q_mem j.2)
  have hv : ∀ m, V ⟨0, hN⟩ m * Q.eval (lam m) = if k = m then 1 else 0 := by
    intro m
    rw [← h.col k m]
    simp only [Q, eval_finsetSum, eval_smul, smul_eq_mul, Finset.mul_sum]
    refine Finset.sum_congr rfl fun j _ => ?_
    rw [component h hN j m]
    ring
  have hD : ∀ c : ℝ, (L (V ⟨0, hN⟩) lam - Iₗ) ((1 + C c * X) * (Q * Q)) = 0 := by
    intro c
    have h1 := bilinear (N := N) (L (V ⟨0, hN⟩) lam - Iₗ) (fun i hi j hj => (exact_q h hN i j hi hj).1) Q Q hQ hQ
    have h2 := bilinear (N := N) ((L (V ⟨0, hN⟩) lam - Iₗ) ∘ₗ LinearMap.mulLeft ℝ X)
      (fun i hi j hj => by
        have := (exact_q h hN i j hi hj).2
        rw [mul_assoc] at this
        exact this) Q Q hQ hQ
    have e : (1 + C c * X) * (Q * Q) = Q * Q + c • (X * (Q * Q)) := by
      rw [smul_eq_C_mul]
      ring
    have h2' : (L (V ⟨0, hN⟩) lam - Iₗ) (X * (Q * Q)) = 0 := h2
    rw [e, map_add, map_smul, h1, h2', smul_zero, add_zero]
  have hL : ∀ c : ℝ, 2 * (1 + c * lam k) = I ((1 + C c * X) * (Q * Q)) := by
    intro c
    have h1 := hD c
    rw [LinearMap.sub_apply] at h1
    have h2 : ∑ m, 2 * V ⟨0, hN⟩ m ^ 2 * ((1 + C c * X) * (Q * Q) : ℝ[X]).eval (lam m) - I ((1 + C c * X) * (Q * Q)) = 0 := h1
    have e : ∀ m, 2 * V ⟨0, hN⟩ m ^ 2 * ((1 + C c * X) * (Q * Q) : ℝ[X]).eval (lam m) =
        if k = m then 2 * (1 + c * lam m) else 0 := by
      intro m
      simp only [eval_mul, eval_add, eval_one, eval_C, eval_X]
      have e2 : 2 * V ⟨0, hN⟩ m ^ 2 * ((1 + c * lam m) * (eval (lam m) Q * eval (lam m) Q)) =
          2 * (1 + c * lam m) * (V ⟨0, hN⟩ m * eval (lam m) Q) ^ 2 := by ring
      rw [e2, hv]
      split <;> simp
    simp only [e] at h2
    rw [Finset.sum_ite_eq Finset.univ, if_pos (Finset.mem_univ _)] at h2
    linarith
  have hpos : ∀ c : ℝ, |c| ≤ 1 → 0 ≤ I ((1 + C c * X) * (Q * Q)) := by
    intro c hc
    refine intervalIntegral.integral_nonneg (by norm_num) fun x hx => ?_
    simp only [eval_mul, eval_add, eval_one, eval_C, eval_X]
    refine mul_nonneg ?_ (mul_self_nonneg _)
    have h1 : |c * x| ≤ 1 := by
      rw [abs_mul]
      exact mul_le_one₀ hc (abs_nonneg _) (abs_le.2 hx)
    linarith [(abs_le.1 h1).1]
  have h1 := hpos 1 (by norm_num)
  have h2 := hpos (-1) (by norm_num)
  rw [← hL] at h1 h2
  constructor <;> linarith
end

end Verif.GolubWelsch
