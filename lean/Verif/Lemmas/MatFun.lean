import Verif.Spec.Mech
import Mathlib.Analysis.Calculus.DSlope
import Mathlib.LinearAlgebra.Matrix.NonsingularInverse
import Mathlib.Topology.Instances.Matrix
import Mathlib.Topology.Ultrafilter
import Mathlib.Tactic.Ring
import Mathlib.Tactic.Linarith
import Mathlib.Tactic.FieldSimp
/-!
Functions of symmetric matrices through any eigendecomposition: the exact difference formula and the first derivative,
for eigenvectors chosen arbitrarily at every time.
-/
namespace Verif.Lemmas.MatFun
open Finset Matrix Filter Topology

variable {n : Nat}

abbrev M (n : Nat) := Matrix (Fin n) (Fin n) ℝ

/-- Columns of `V` are orthonormal eigenvectors of `C`. -/
structure Eig (C : M n) (lam : Fin n → ℝ) (V : M n) : Prop where
  orth : Vᵀ * V = 1
  eig : C * V = V * diagonal lam

/-- `f(C)`. -/
noncomputable def fcn (f : ℝ → ℝ) (lam : Fin n → ℝ) (V : M n) : M n := V * diagonal (fun i => f (lam i)) * Vᵀ

variable {C B : M n} {lam mu : Fin n → ℝ} {V W : M n}

theorem Eig.orth' (h : Eig C lam V) : V * Vᵀ = 1 := mul_eq_one_comm.mp h.orth

theorem Eig.eq (h : Eig C lam V) : C = V * diagonal lam * Vᵀ := by
  rw [← h.eig, Matrix.mul_assoc, h.orth', Matrix.mul_one]

theorem Eig.left (h : Eig C lam V) : Vᵀ * C = diagonal lam * Vᵀ := by
  conv_lhs => rw [h.eq]
  rw [← Matrix.mul_assoc, ← Matrix.mul_assoc, h.orth, Matrix.one_mul]

theorem Eig.symm (h : Eig C lam V) : Cᵀ = C := by
  conv_lhs => rw [h.eq]
  rw [Matrix.transpose_mul, Matrix.transpose_mul, Matrix.transpose_transpose, diagonal_transpose, ← Matrix.mul_assoc, ← h.eq]

/-- The entries of the change of basis vanish between different eigenvalues. -/
theorem Eig.change (h : Eig C lam V) (g : Eig C mu W) (i j : Fin n) (hne : (Vᵀ * W) i j ≠ 0) : lam i = mu j := by
  have e : diagonal lam * (Vᵀ * W) = (Vᵀ * W) * diagonal mu := by
    rw [← Matrix.mul_assoc, ← h.left, Matrix.mul_assoc, g.eig, Matrix.mul_assoc]
  have := congrFun (congrFun e i) j
  rw [diagonal_mul, mul_diagonal, mul_comm] at this
  exact mul_left_cancel₀ hne this

theorem fcn_unique (f : ℝ → ℝ) (h : Eig C lam V) (g : Eig C mu W) : fcn f lam V = fcn f mu W := by
  have e : diagonal (fun i => f (lam i)) * (Vᵀ * W) = (Vᵀ * W) * diagonal (fun j => f (mu j)) := by
    ext i j
    rw [diagonal_mul, mul_diagonal]
    by_cases hne : (Vᵀ * W) i j = 0
    · rw [hne]; ring
    · rw [h.change g i j hne]; ring
  calc fcn f lam V = V * (diagonal (fun i => f (lam i)) * (Vᵀ * W)) * Wᵀ := by
        rw [fcn, Matrix.mul_assoc V _ Wᵀ, Matrix.mul_assoc _ _ Wᵀ, Matrix.mul_assoc Vᵀ W Wᵀ, g.orth', Matrix.mul_one,
          Matrix.mul_assoc]
    _ = fcn f mu W := by
        rw [e, fcn, ← Matrix.mul_assoc, ← Matrix.mul_assoc, h.orth', Matrix.one_mul]

/-- Every eigenvalue of one decomposition occurs in any other. -/
theorem Eig.mem (h : Eig C lam V) (g : Eig C mu W) (j : Fin n) : ∃ i, lam i = mu j := by
  by_contra hc
  push Not at hc
  have h0 : ∀ i, (Vᵀ * W) i j = 0 := fun i => by
    by_contra hne
    exact hc i (h.change g i j hne)
  have h1 : (Wᵀ * W) j j = 0 := by
    have : Wᵀ * W = (Vᵀ * W)ᵀ * (Vᵀ * W) := by
      rw [Matrix.transpose_mul, Matrix.transpose_transpose, Matrix.mul_assoc, ← Matrix.mul_assoc V, h.orth', Matrix.one_mul]
    rw [this, Matrix.mul_apply]
    exact sum_eq_zero fun i _ => by rw [h0 i, mul_zero]
  rw [g.orth, one_apply_eq] at h1
  exact one_ne_zero h1

/-- The exact difference formula. -/
theorem fcn_sub (f : ℝ → ℝ) (h : Eig C lam V) (g : Eig B mu W) :
    fcn f lam V - fcn f mu W =
      V * (Matrix.of fun i j => dslope f (lam i) (mu j) * (Vᵀ * (C - B) * W) i j) * Wᵀ := by
  have e : (Matrix.of fun i j => dslope f (lam i) (mu j) * (Vᵀ * (C - B) * W) i j) =
      diagonal (fun i => f (lam i)) * (Vᵀ * W) - (Vᵀ * W) * diagonal (fun j => f (mu j)) := by
    have e1 : Vᵀ * (C - B) * W = diagonal lam * (Vᵀ * W) - (Vᵀ * W) * diagonal mu := by
      rw [Matrix.mul_sub, Matrix.sub_mul, h.left, Matrix.mul_assoc _ B, g.eig, Matrix.mul_assoc, Matrix.mul_assoc]
    ext i j
    rw [e1, of_apply, Matrix.sub_apply, Matrix.sub_apply, diagonal_mul, mul_diagonal, diagonal_mul, mul_diagonal]
    have := sub_smul_dslope f (lam i) (mu j)
    rw [smul_eq_mul] at this
    linear_combination -(Vᵀ * W) i j * this
  rw [e, Matrix.mul_sub, Matrix.sub_mul]
  congr 1
  · rw [fcn, Matrix.mul_assoc V _ Wᵀ, Matrix.mul_assoc _ _ Wᵀ, Matrix.mul_assoc Vᵀ W Wᵀ, g.orth', Matrix.mul_one,
      Matrix.mul_assoc]
  · rw [fcn, ← Matrix.mul_assoc, ← Matrix.mul_assoc, h.orth', Matrix.one_mul]

theorem entry_le (h : Vᵀ * V = 1) (a i : Fin n) : V a i ∈ Set.Icc (-1 : ℝ) 1 := by
  have e := congrFun (congrFun h i) i
  rw [Matrix.mul_apply, one_apply_eq] at e
  have : V a i * V a i ≤ 1 := by
    rw [← e]
    exact single_le_sum (f := fun a => Vᵀ i a * V a i) (fun a _ => mul_self_nonneg _) (mem_univ a)
  exact abs_le.mp (abs_le_one_iff_mul_self_le_one.mpr this)

/-- Along an ultrafilter, the eigenvectors and eigenvalues of a convergent path converge to a decomposition of the limit. -/
theorem eig_limit {ι : Type} {U : Ultrafilter ι} {Cs : ι → M n} {mus : ι → Fin n → ℝ} {Ws : ι → M n}
    (h : ∀ s, Eig (Cs s) (mus s) (Ws s)) (hC : Tendsto Cs U (𝓝 C)) :
    ∃ mu W, Eig C mu W ∧ Tendsto Ws U (𝓝 W) ∧ ∀ j, Tendsto (fun s => mus s j) U (𝓝 (mu j)) := by
  have hW : ∀ a i, ∃ w, Tendsto (fun s => Ws s a i) U (𝓝 w) := by
    intro a i
    obtain ⟨w, -, hw⟩ := (isCompact_Icc (a := (-1 : ℝ)) (b := 1)).ultrafilter_le_nhds (U.map fun s => Ws s a i)
      (le_principal_iff.mpr (Filter.mem_map.mpr (Filter.univ_mem' fun s => entry_le (h s).orth a i)))
    exact ⟨w, hw⟩
  choose W hW using hW
  have hWt : Tendsto Ws U (𝓝 (Matrix.of W)) := tendsto_pi_nhds.mpr fun a => tendsto_pi_nhds.mpr fun i => hW a i
  have hmu : ∀ s j, mus s j = ((Ws s)ᵀ * Cs s * Ws s) j j := by
    intro s j
    rw [Matrix.mul_assoc, (h s).eig, ← Matrix.mul_assoc, (h s).orth, Matrix.one_mul, diagonal_apply_eq]
  have hT : Tendsto (fun s => (Ws s)ᵀ) U (𝓝 (Matrix.of W)ᵀ) := (continuous_id.matrix_transpose.tendsto _).comp hWt
  have hconj := (hT.mul hC).mul hWt
  have hmut : ∀ j, Tendsto (fun s => mus s j) U (𝓝 (((Matrix.of W)ᵀ * C * Matrix.of W) j j)) := by
    intro j
    simp only [hmu]
    exact tendsto_pi_nhds.mp (tendsto_pi_nhds.mp hconj j) j
  refine ⟨_, Matrix.of W, ⟨?_, ?_⟩, hWt, hmut⟩
  · refine tendsto_nhds_unique (hT.mul hWt) ?_
    simp only [(h _).orth]
    exact tendsto_const_nhds
  · refine tendsto_nhds_unique (hC.mul hWt) ?_
    simp only [(h _).eig]
    exact hWt.mul ((continuous_id.matrix_diagonal.tendsto _).comp (tendsto_pi_nhds.mpr hmut))

theorem continuousAt_dslope {f : ℝ → ℝ} {a b : ℝ} (ha : DifferentiableAt ℝ f a) (hb : DifferentiableAt ℝ f b) :
    ContinuousAt (dslope f a) b := by
  by_cases h : b = a
  · subst h; exact continuousAt_dslope_same.mpr ha
  · exact (continuousAt_dslope_of_ne h).mpr hb.continuousAt

/-- The derivative of `f(C)` in the direction `H`. -/
noncomputable def dfcn (f : ℝ → ℝ) (lam : Fin n → ℝ) (V H : M n) : M n :=
  V * (Matrix.of fun i j => dslope f (lam i) (lam j) * (Vᵀ * H * V) i j) * Vᵀ

/-- The limit of the difference quotients does not depend on the decomposition on the right. -/
theorem mixed_unique (G : ℝ → ℝ → ℝ) (h : Eig C lam V) (g : Eig C mu W) (H : M n) :
    V * (Matrix.of fun i j => G (lam i) (mu j) * (Vᵀ * H * W) i j) * Wᵀ =
      V * (Matrix.of fun i j => G (lam i) (lam j) * (Vᵀ * H * V) i j) * Vᵀ := by
  rw [Matrix.mul_assoc V _ Wᵀ, Matrix.mul_assoc V _ Vᵀ]
  congr 1
  ext i b
  have key : ∀ (nu : Fin n → ℝ) (X : M n), ((Matrix.of fun i j => G (lam i) (nu j) * (Vᵀ * H * X) i j) * Xᵀ) i b =
      ((Vᵀ * H) * fcn (G (lam i)) nu X) i b := by
    intro nu X
    rw [fcn, ← Matrix.mul_assoc, ← Matrix.mul_assoc, Matrix.mul_apply, Matrix.mul_apply]
    exact sum_congr rfl fun j _ => by rw [mul_diagonal, of_apply]; ring
  rw [key, key, fcn_unique _ h g]

/-- `f(C(s))` is differentiable with the derivative `dfcn`, whatever eigenvectors are chosen at each `s`. -/
theorem fcn_tendsto {f : ℝ → ℝ} {Cs : ℝ → M n} {mus : ℝ → Fin n → ℝ} {Ws : ℝ → M n} {t : ℝ} {H : M n}
    (h : ∀ s, Eig (Cs s) (mus s) (Ws s)) (hC : Tendsto (fun s => (s - t)⁻¹ • (Cs s - Cs t)) (𝓝[≠] t) (𝓝 H))
    (hc : Tendsto Cs (𝓝[≠] t) (𝓝 (Cs t)))
    (hf : ∀ i, DifferentiableAt ℝ f (mus t i)) :
    Tendsto (fun s => (s - t)⁻¹ • (fcn f (mus s) (Ws s) - fcn f (mus t) (Ws t))) (𝓝[≠] t)
      (𝓝 (dfcn f (mus t) (Ws t) H)) := by
  rw [tendsto_iff_ultrafilter]
  intro U hU
  obtain ⟨mu, W, hE, hW, hmu⟩ := eig_limit (U := U) h (hc.mono_left hU)
  have e : ∀ s, (s - t)⁻¹ • (fcn f (mus s) (Ws s) - fcn f (mus t) (Ws t)) =
      Ws t * (Matrix.of fun i j => dslope f (mus t i) (mus s j) *
        ((Ws t)ᵀ * ((s - t)⁻¹ • (Cs s - Cs t)) * Ws s) i j) * (Ws s)ᵀ := by
    intro s
    rw [← neg_sub (fcn f (mus t) (Ws t)), fcn_sub f (h t) (h s), ← neg_sub (Cs t)]
    simp only [smul_neg, Matrix.mul_neg, Matrix.neg_mul, Matrix.mul_smul, Matrix.smul_mul, Matrix.neg_apply,
      Matrix.smul_apply, smul_eq_mul]
    rw [← Matrix.smul_mul, ← Matrix.mul_smul, ← Matrix.neg_mul, ← Matrix.mul_neg]
    congr 2
    ext i j
    simp only [Matrix.neg_apply, Matrix.smul_apply, of_apply, smul_eq_mul]
    ring
  simp only [e]
  rw [dfcn, ← mixed_unique (dslope f) (h t) hE H]
  have hT : Tendsto (fun s => (Ws s)ᵀ) U (𝓝 Wᵀ) := (continuous_id.matrix_transpose.tendsto _).comp hW
  refine (tendsto_const_nhds.mul ?_).mul hT
  refine tendsto_pi_nhds.mpr fun i => tendsto_pi_nhds.mpr fun j => ?_
  refine Tendsto.mul ?_ (tendsto_pi_nhds.mp (tendsto_pi_nhds.mp ((tendsto_const_nhds.mul (hC.mono_left hU)).mul hW) i) j)
  obtain ⟨k, hk⟩ := (h t).mem hE j
  exact (continuousAt_dslope (hf i) (hk ▸ hf k)).tendsto.comp (hmu j)

end Verif.Lemmas.MatFun
