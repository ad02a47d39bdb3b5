import Verif.Model.ConjGrad
import Verif.Spec.ConjGrad
import Mathlib.Tactic.Ring
import Mathlib.Tactic.FieldSimp
import Mathlib.Tactic.Linarith
import Mathlib.LinearAlgebra.Dimension.Constructions
import Mathlib.LinearAlgebra.Dimension.Finite
import Mathlib.LinearAlgebra.FiniteDimensional.Defs
import Mathlib.LinearAlgebra.Matrix.Symmetric
/-! Lemmas for ConjGrad.lean. -/
namespace Verif.Props.ConjGrad
open Verif.ConjGrad Verif.Spec.ConjGrad Matrix

variable {n : Nat}

theorem dot_self_nonneg (v : Fin n → ℝ) : 0 ≤ v ⬝ᵥ v :=
  Finset.sum_nonneg fun i _ => mul_self_nonneg (v i)

theorem dot_self_eq_zero (v : Fin n → ℝ) : v ⬝ᵥ v = 0 ↔ v = 0 := by
  constructor
  · intro h
    have := (Finset.sum_eq_zero_iff_of_nonneg (fun i _ => mul_self_nonneg (v i))).1 h
    funext i
    exact mul_self_eq_zero.1 (this i (Finset.mem_univ i))
  · rintro rfl; simp

/-- The residual after one pass is the true residual of the new `x`. -/
theorem step_residual (A : Matrix (Fin n) (Fin n) ℝ) (b : Fin n → ℝ) (s s' : St n) (hs : step A s = some s')
    (hr : s.r = b - A *ᵥ s.x) : s'.r = b - A *ᵥ s'.x := by
  unfold step at hs
  simp only at hs
  split at hs
  · cases hs
  · split at hs
    · cases hs
    · cases hs
      simp only [Matrix.mulVec_add, Matrix.mulVec_smul, hr]
      abel

theorem loop_residual (p : Params) (A : Matrix (Fin n) (Fin n) ℝ) (b : Fin n → ℝ) (nr0 : ℝ) (fuel : Nat) (s s' : St n)
    (hs : loop p A nr0 fuel s = some s') (hr : s.r = b - A *ᵥ s.x) : s'.r = b - A *ᵥ s'.x := by
  induction fuel generalizing s with
  | zero => simp only [loop, Option.some.injEq] at hs; subst hs; exact hr
  | succ fuel ih =>
    rw [loop] at hs
    split at hs
    · cases h : step A s with
      | none => rw [h] at hs; cases hs
      | some t => rw [h] at hs; exact ih t hs (step_residual A b s t h hr)
    · simp only [Option.some.injEq] at hs; subst hs; exact hr

theorem start_residual (p : Params) (A : Matrix (Fin n) (Fin n) ℝ) (b x : Fin n → ℝ) :
    (start p A b x).r = b - A *ᵥ (start p A b x).x := by
  simp [start]

theorem steps_succ' (A : Matrix (Fin n) (Fin n) ℝ) (k : Nat) (s : St n) :
    steps A (k + 1) s = (step A s).bind (steps A k) := by
  induction k with
  | zero => simp only [steps, Option.bind_some]; cases step A s <;> rfl
  | succ k ih => rw [steps, ih]; cases step A s <;> rfl

/-- The loop does some number of passes; when it stops early the condition fails. -/
theorem loop_steps (p : Params) (A : Matrix (Fin n) (Fin n) ℝ) (nr0 : ℝ) (fuel : Nat) (s s' : St n)
    (hs : loop p A nr0 fuel s = some s') :
    ∃ k, k ≤ fuel ∧ steps A k s = some s' ∧ (k < fuel → ¬ goesOn p nr0 (norm s'.r)) ∧
      ∀ j t, j < k → steps A j s = some t → goesOn p nr0 (norm t.r) := by
  induction fuel generalizing s with
  | zero =>
    simp only [loop, Option.some.injEq] at hs
    exact ⟨0, le_refl _, by rw [steps, hs], fun h => absurd h (by omega), fun j t h => absurd h (by omega)⟩
  | succ fuel ih =>
    rw [loop] at hs
    split at hs
    · rename_i hg
      cases h : step A s with
      | none => rw [h] at hs; cases hs
      | some t =>
        rw [h] at hs
        obtain ⟨k, h1, h2, h3, h4⟩ := ih t hs
        refine ⟨k + 1, by omega, by rw [steps_succ', h]; exact h2, fun hk => h3 (by omega), ?_⟩
        intro j u hj hu
        cases j with
        | zero => simp only [steps, Option.some.injEq] at hu; subst hu; exact hg
        | succ j => rw [steps_succ', h] at hu; exact h4 j u (by omega) hu
    · rename_i hg
      simp only [Option.some.injEq] at hs
      subst hs
      exact ⟨0, by omega, rfl, fun _ => hg, fun j t h => absurd h (by omega)⟩

/-- The orthogonality relations of the first `K` iterates. -/
structure Orth (A : Matrix (Fin n) (Fin n) ℝ) (q : Nat → St n) (K : Nat) : Prop where
  rr : ∀ i j, i < j → j ≤ K → (q j).r ⬝ᵥ (q i).r = 0
  rd : ∀ i j, i < j → j ≤ K → (q j).r ⬝ᵥ (q i).d = 0
  dd : ∀ i j, i < j → j ≤ K → (q j).d ⬝ᵥ (A *ᵥ (q i).d) = 0
  diag : ∀ j, j ≤ K → (q j).d ⬝ᵥ (q j).r = (q j).r ⬝ᵥ (q j).r

theorem symm_dot (A : Matrix (Fin n) (Fin n) ℝ) (hA : A.IsSymm) (u v : Fin n → ℝ) :
    u ⬝ᵥ (A *ᵥ v) = v ⬝ᵥ (A *ᵥ u) := by
  rw [Matrix.dotProduct_mulVec, ← Matrix.mulVec_transpose, hA.eq, dotProduct_comm]

theorem step_eqs (A : Matrix (Fin n) (Fin n) ℝ) (s s' : St n) (h : step A s = some s') :
    s.d ⬝ᵥ (A *ᵥ s.d) ≠ 0 ∧ s.r ⬝ᵥ s.r ≠ 0 ∧
    s'.x = s.x + ((s.r ⬝ᵥ s.r) / (s.d ⬝ᵥ (A *ᵥ s.d))) • s.d ∧
    s'.r = s.r - ((s.r ⬝ᵥ s.r) / (s.d ⬝ᵥ (A *ᵥ s.d))) • (A *ᵥ s.d) ∧
    s'.d = s'.r + ((s'.r ⬝ᵥ s'.r) / (s.r ⬝ᵥ s.r)) • s.d := by
  unfold step at h
  simp only at h
  split at h
  · cases h
  · split at h
    · cases h
    · cases h
      rename_i h1 h2
      exact ⟨h1, h2, rfl, rfl, rfl⟩

theorem orth_succ (A : Matrix (Fin n) (Fin n) ℝ) (hA : A.IsSymm) (q : Nat → St n) (K : Nat)
    (h0 : (q 0).d = (q 0).r) (hq : ∀ i, i ≤ K → step A (q i) = some (q (i + 1))) (h : Orth A q K) :
    Orth A q (K + 1) := by
  obtain ⟨e1, e2, _, e4, e5⟩ := step_eqs A _ _ (hq K (le_refl K))
  have rdK : ∀ i, i ≤ K → (q (K + 1)).r ⬝ᵥ (q i).d = 0 := by
    intro i hi
    rw [e4, sub_dotProduct, smul_dotProduct, smul_eq_mul]
    rcases Nat.lt_or_eq_of_le hi with hlt | rfl
    · rw [h.rd i K hlt (le_refl _), dotProduct_comm (A *ᵥ (q K).d), symm_dot A hA (q i).d, h.dd i K hlt (le_refl _)]
      ring
    · rw [dotProduct_comm, h.diag i (le_refl _), dotProduct_comm (A *ᵥ (q i).d)]
      field_simp
      ring
  have rrK : ∀ i, i ≤ K → (q (K + 1)).r ⬝ᵥ (q i).r = 0 := by
    intro i hi
    cases i with
    | zero => rw [← h0]; exact rdK 0 hi
    | succ i =>
      obtain ⟨_, _, _, _, f5⟩ := step_eqs A _ _ (hq i (by omega))
      have : (q (i + 1)).r = (q (i + 1)).d - (((q (i + 1)).r ⬝ᵥ (q (i + 1)).r) / ((q i).r ⬝ᵥ (q i).r)) • (q i).d := by
        rw [f5]; abel
      rw [this, dotProduct_sub, dotProduct_smul, rdK (i + 1) hi, rdK i (by omega)]
      simp
  have diagK : (q (K + 1)).d ⬝ᵥ (q (K + 1)).r = (q (K + 1)).r ⬝ᵥ (q (K + 1)).r := by
    rw [e5, add_dotProduct, smul_dotProduct, dotProduct_comm (q K).d, rdK K (le_refl _)]
    simp
  have ddK : ∀ i, i ≤ K → (q (K + 1)).d ⬝ᵥ (A *ᵥ (q i).d) = 0 := by
    intro i hi
    obtain ⟨g1, g2, _, g4, _⟩ := step_eqs A _ _ (hq i hi)
    have hy : A *ᵥ (q i).d = (((q i).d ⬝ᵥ (A *ᵥ (q i).d)) / ((q i).r ⬝ᵥ (q i).r)) • ((q i).r - (q (i + 1)).r) := by
      rw [g4, sub_sub_cancel, smul_smul]
      have : (((q i).d ⬝ᵥ (A *ᵥ (q i).d)) / ((q i).r ⬝ᵥ (q i).r)) * (((q i).r ⬝ᵥ (q i).r) / ((q i).d ⬝ᵥ (A *ᵥ (q i).d))) = 1 := by
        field_simp
      rw [this, one_smul]
    rcases Nat.lt_or_eq_of_le hi with hlt | rfl
    · rw [e5, add_dotProduct, smul_dotProduct, h.dd i K hlt (le_refl _), hy, dotProduct_smul, dotProduct_sub,
        rrK i hi, rrK (i + 1) hlt]
      simp
    · have hr : (q (i + 1)).r ⬝ᵥ (A *ᵥ (q i).d) =
          -(((q i).d ⬝ᵥ (A *ᵥ (q i).d)) / ((q i).r ⬝ᵥ (q i).r)) * ((q (i + 1)).r ⬝ᵥ (q (i + 1)).r) := by
        rw [hy, dotProduct_smul, dotProduct_sub, rrK i hi, smul_eq_mul]
        rw [← hy]
        ring
      rw [e5, add_dotProduct, smul_dotProduct, hr, smul_eq_mul]
      field_simp
      ring
  constructor
  · intro i j hij hj
    rcases Nat.lt_or_eq_of_le hj with hlt | rfl
    · exact h.rr i j hij (by omega)
    · exact rrK i (by omega)
  · intro i j hij hj
    rcases Nat.lt_or_eq_of_le hj with hlt | rfl
    · exact h.rd i j hij (by omega)
    · exact rdK i (by omega)
  · intro i j hij hj
    rcases Nat.lt_or_eq_of_le hj with hlt | rfl
    · exact h.dd i j hij (by omega)
    · exact ddK i (by omega)
  · intro j hj
    rcases Nat.lt_or_eq_of_le hj with hlt | rfl
    · exact h.diag j (by omega)
    · exact diagK

theorem orth_all (A : Matrix (Fin n) (Fin n) ℝ) (hA : A.IsSymm) (q : Nat → St n) (K : Nat)
    (h0 : (q 0).d = (q 0).r) (hq : ∀ i, i < K → step A (q i) = some (q (i + 1))) : Orth A q K := by
  induction K with
  | zero =>
    refine ⟨fun i j h1 h2 => by omega, fun i j h1 h2 => by omega, fun i j h1 h2 => by omega, ?_⟩
    intro j hj
    have : j = 0 := by omega
    subst this
    rw [h0]
  | succ K ih => exact orth_succ A hA q K h0 (fun i hi => hq i (by omega)) (ih fun i hi => hq i (by omega))

/-- At most `n` mutually orthogonal non-zero vectors. -/
theorem orth_count (v : Fin (n + 1) → Fin n → ℝ) (h : ∀ i j, i < j → v j ⬝ᵥ v i = 0) : ∃ i, v i = 0 := by
  by_contra hne
  push Not at hne
  have hli : LinearIndependent ℝ v := by
    rw [Fintype.linearIndependent_iff]
    intro g hg i
    have h1 : (∑ j, g j • v j) ⬝ᵥ v i = 0 := by rw [hg]; simp
    rw [sum_dotProduct, Finset.sum_eq_single i] at h1
    · rw [smul_dotProduct, smul_eq_mul] at h1
      rcases mul_eq_zero.1 h1 with h2 | h2
      · exact h2
      · exact absurd ((dot_self_eq_zero _).1 h2) (hne i)
    · intro j _ hj
      rw [smul_dotProduct]
      rcases lt_or_gt_of_ne hj with h2 | h2
      · rw [dotProduct_comm, h j i h2]; simp
      · rw [h i j h2]; simp
    · intro hi; exact absurd (Finset.mem_univ i) hi
  have := hli.fintype_card_le_finrank
  simp at this

theorem steps_le (A : Matrix (Fin n) (Fin n) ℝ) (k j : Nat) (s t : St n) (h : steps A k s = some t) (hj : j ≤ k) :
    ∃ u, steps A j s = some u := by
  induction k generalizing t with
  | zero => have : j = 0 := by omega
            subst this; exact ⟨t, h⟩
  | succ k ih =>
    rcases Nat.lt_or_eq_of_le hj with hlt | rfl
    · rw [steps] at h
      cases hk : steps A k s with
      | none => rw [hk] at h; cases h
      | some u => exact ih u hk (by omega)
    · exact ⟨t, h⟩

/-- Orthogonality of the iterates of the program. -/
theorem steps_orth (p : Params) (A : Matrix (Fin n) (Fin n) ℝ) (hA : A.IsSymm) (b x : Fin n → ℝ) (k : Nat) (s : St n)
    (hs : steps A k (start p A b x) = some s) :
    Orth A (fun j => (steps A j (start p A b x)).getD (start p A b x)) k := by
  apply orth_all A hA
  · simp [steps, start]
  · intro i hi
    obtain ⟨u, hu⟩ := steps_le A k i _ _ hs (by omega)
    obtain ⟨v, hv⟩ := steps_le A k (i + 1) _ _ hs (by omega)
    have : step A u = some v := by rw [steps, hu] at hv; exact hv
    simp only [hu, hv, Option.getD_some, this]

theorem norm_eq_zero (v : Fin n → ℝ) : norm v = 0 ↔ v = 0 := by
  unfold norm
  rw [Real.sqrt_eq_zero (dot_self_nonneg v), dot_self_eq_zero]

/-- For positive definite matrices the loop never divides by zero. -/
theorem loop_ne_none (p : Params) (A : Matrix (Fin n) (Fin n) ℝ) (hA : A.IsSymm)
    (hpd : ∀ v : Fin n → ℝ, v ≠ 0 → 0 < v ⬝ᵥ (A *ᵥ v)) (b x : Fin n → ℝ) (htol : 0 ≤ p.rrTol) (fuel k : Nat)
    (s : St n) (hs : steps A k (start p A b x) = some s) :
    loop p A (norm (start p A b x).r) fuel s ≠ none := by
  induction fuel generalizing k s with
  | zero => simp [loop]
  | succ fuel ih =>
    rw [loop]
    split
    · rename_i hg
      have hr : s.r ⬝ᵥ s.r ≠ 0 := by
        intro h
        have h0 : norm s.r = 0 := (norm_eq_zero _).2 ((dot_self_eq_zero _).1 h)
        have := hg.2.1
        rw [h0, zero_div] at this
        exact absurd htol (not_le.2 this)
      have hdg := (steps_orth p A hA b x k s hs).diag k (le_refl _)
      simp only [hs, Option.getD_some] at hdg
      have hd : s.d ≠ 0 := by
        intro h
        rw [h, zero_dotProduct] at hdg
        exact hr hdg.symm
      have hdd := (hpd s.d hd).ne'
      cases hst : step A s with
      | none => simp [step, hdd, hr] at hst
      | some t => exact ih (k + 1) t (by rw [steps, hs]; exact hst)
    · simp

theorem core_start_zero (p : Params) (A : Matrix (Fin n) (Fin n) ℝ) (b x : Fin n → ℝ) (h : (start p A b x).r = 0) :
    core p A b x = some (start p A b x) := by
  unfold core
  cases maxIter p n with
  | zero => rfl
  | succ f =>
    rw [loop, if_neg]
    intro hg
    exact hg.1 ((norm_eq_zero _).2 h)

/-- After as many passes as unknowns the residual is zero. -/
theorem core_full (p : Params) (A : Matrix (Fin n) (Fin n) ℝ) (hA : A.IsSymm) (b x : Fin n → ℝ)
    (s : St n) (k : Nat) (hk : steps A k (start p A b x) = some s) (hn : n ≤ k) : s.r = 0 := by
  have ho := steps_orth p A hA b x k s hk
  obtain ⟨i, hi⟩ := orth_count (n := n) (fun j => ((steps A j.1 (start p A b x)).getD (start p A b x)).r)
    (fun i j hij => ho.rr i.1 j.1 hij (by have := j.2; omega))
  have hin : i.1 ≤ k := by have := i.2; omega
  rcases Nat.lt_or_eq_of_le hin with hlt | heq
  · exfalso
    -- a pass from a zero residual is impossible
    obtain ⟨u, hu⟩ := steps_le A k i.1 _ _ hk hin
    obtain ⟨v, hv⟩ := steps_le A k (i.1 + 1) _ _ hk hlt
    have hst : step A u = some v := by rw [steps, hu] at hv; exact hv
    obtain ⟨_, h2, _⟩ := step_eqs A u v hst
    simp only [hu, Option.getD_some] at hi
    rw [hi] at h2
    simp at h2
  · simp only [heq, hk, Option.getD_some] at hi
    exact hi

end Verif.Props.ConjGrad
