import Verif.Lemmas.GolubWelsch
/-! The rules with up to five nodes. -/
namespace Verif.GolubWelsch
open Polynomial Verif.Spec Verif.Quad

theorem reqd_eq (d : ℕ) : reqdNodes d = d / 2 + 1 := by
  unfold reqdNodes
  dsimp only
  split <;> omega

/-- A symmetric pair of nodes. -/
theorem pair_moment (p w A : ℝ) (h : p ^ 2 = A) (k : ℕ) :
    w * (-p) ^ k + w * p ^ k = if k % 2 = 0 then 2 * w * A ^ (k / 2) else 0 := by
  split
  · next hk =>
    obtain ⟨m, rfl⟩ : ∃ m, k = 2 * m := ⟨k / 2, by omega⟩
    rw [Nat.mul_div_cancel_left _ (by norm_num), pow_mul, neg_sq, pow_mul, h]
    ring
  · next hk =>
    have : Odd k := Nat.odd_iff.2 (by omega)
    rw [this.neg_pow]
    ring

theorem two (k : ℕ) (hk : k ≤ 3) :
    quadSum [(-(1 / √3), 1), (1 / √3, 1)] (fun x : ℝ => x ^ k) = mom k := by
  have hp : (1 / √3 : ℝ) ^ 2 = 1 / 3 := by rw [div_pow, Real.sq_sqrt (by norm_num)]; norm_num
  have h := pair_moment _ 1 _ hp k
  simp only [quadSum, List.map_cons, List.map_nil, List.sum_cons, List.sum_nil, add_zero]
  rw [h]
  interval_cases k <;> norm_num [mom]

theorem three (k : ℕ) (hk : k ≤ 5) :
    quadSum [(-√(3 / 5), 5 / 9), (√(3 / 5), 5 / 9), (0, 8 / 9)] (fun x : ℝ => x ^ k) = mom k := by
  have hp : √(3 / 5 : ℝ) ^ 2 = 3 / 5 := Real.sq_sqrt (by norm_num)
  have h := pair_moment _ (5 / 9) _ hp k
  simp only [quadSum, List.map_cons, List.map_nil, List.sum_cons, List.sum_nil, add_zero]
  rw [← add_assoc, h]
  interval_cases k <;> norm_num [mom]

theorem four (k : ℕ) (hk : k ≤ 7) :
    quadSum [(-√((15 - 2 * √30) / 35), (18 + √30) / 36), (√((15 - 2 * √30) / 35), (18 + √30) / 36),
      (-√((15 + 2 * √30) / 35), (18 - √30) / 36), (√((15 + 2 * √30) / 35), (18 - √30) / 36)] (fun x : ℝ => x ^ k) = mom k := by
  have hs : √(30 : ℝ) ^ 2 = 30 := Real.sq_sqrt (by norm_num)
  have hs0 : 0 ≤ √(30 : ℝ) := Real.sqrt_nonneg _
  have hs1 : √(30 : ℝ) ≤ 6 := by nlinarith
  have h1 := pair_moment _ ((18 + √30) / 36) _ (Real.sq_sqrt (show (0 : ℝ) ≤ (15 - 2 * √30) / 35 by linarith)) k
  have h2 := pair_moment _ ((18 - √30) / 36) _ (Real.sq_sqrt (show (0 : ℝ) ≤ (15 + 2 * √30) / 35 by linarith)) k
  simp only [quadSum, List.map_cons, List.map_nil, List.sum_cons, List.sum_nil, add_zero]
  rw [← add_assoc, h1, h2]
  generalize √(30 : ℝ) = s at hs
  have h4 : s ^ 4 = 900 := by rw [show s ^ 4 = (s ^ 2) ^ 2 by ring, hs]; norm_num
  interval_cases k <;> norm_num [mom] <;> ring_nf <;> (try simp only [hs, h4]) <;> ring

theorem five (k : ℕ) (hk : k ≤ 9) :
    quadSum [(0, 128 / 225), (-(√(5 - 2 * √(10 / 7)) / 3), (322 + 13 * √70) / 900),
      (√(5 - 2 * √(10 / 7)) / 3, (322 + 13 * √70) / 900), (-(√(5 + 2 * √(10 / 7)) / 3), (322 - 13 * √70) / 900),
      (√(5 + 2 * √(10 / 7)) / 3, (322 - 13 * √70) / 900)] (fun x : ℝ => x ^ k) = mom k := by
  have hs : √(70 : ℝ) ^ 2 = 70 := Real.sq_sqrt (by norm_num)
  have hs0 : 0 ≤ √(70 : ℝ) := Real.sqrt_nonneg _
  have hs1 : √(70 : ℝ) ≤ 9 := by nlinarith
  have ht : √(10 / 7 : ℝ) = √70 / 7 := by
    rw [Real.sqrt_eq_iff_mul_self_eq (by norm_num) (by positivity)]
    nlinarith
  rw [ht]
  have e1 : (√(5 - 2 * (√70 / 7)) / 3 : ℝ) ^ 2 = (5 - 2 * (√70 / 7)) / 9 := by
    rw [div_pow, Real.sq_sqrt (by linarith)]; norm_num
  have e2 : (√(5 + 2 * (√70 / 7)) / 3 : ℝ) ^ 2 = (5 + 2 * (√70 / 7)) / 9 := by
    rw [div_pow, Real.sq_sqrt (by linarith)]; norm_num
  have h1 := pair_moment _ ((322 + 13 * √70) / 900) _ e1 k
  have h2 := pair_moment _ ((322 - 13 * √70) / 900) _ e2 k
  simp only [quadSum, List.map_cons, List.map_nil, List.sum_cons, List.sum_nil, add_zero]
  rw [← add_assoc ((322 + 13 * √70) / 900 * _), h1, h2]
  generalize √(70 : ℝ) = s at hs
  have h4 : s ^ 4 = 4900 := by rw [show s ^ 4 = (s ^ 2) ^ 2 by ring, hs]; norm_num
  interval_cases k <;> norm_num [mom] <;> ring_nf <;> (try simp only [hs, h4]) <;> ring

theorem selfAdjoint_symm {n : ℕ} (M : Matrix (Fin n) (Fin n) ℝ) (i j : Fin n) :
    selfAdjoint M i j = selfAdjoint M j i := by
  unfold selfAdjoint
  by_cases h1 : j ≤ i <;> by_cases h2 : i ≤ j
  · rw [le_antisymm h1 h2]
  · rw [if_pos h1, if_neg h2]
  · rw [if_neg h1, if_pos h2]
  · exact absurd (le_total i j) (by tauto)

theorem golub_moment (sol : Solver) (hs : SolvesSymmetric sol) (d k : ℕ) (hk : k ≤ d) :
    quadSum (golubWelsch sol d) (fun x => x ^ k) = mom k := by
  unfold golubWelsch
  rw [reqd_eq]
  rcases hd : d / 2 with _ | m
  · have : k ≤ 1 := by omega
    simp only [quadSum, List.map_cons, List.map_nil, List.sum_cons, List.sum_nil]
    interval_cases k <;> norm_num [mom]
  · have h := exact_pow (hs (m + 2) _ (selfAdjoint_symm _)) (by omega) k (by omega)
    rw [← h]
    simp only [quadSum, List.map_ofFn, List.sum_ofFn, Function.comp_def]
    rfl

theorem gauss_moment (sol : Solver) (hs : SolvesSymmetric sol) (d k : ℕ) (hk : k ≤ d) :
    quadSum (gaussLegendre sol d) (fun x => x ^ k) = mom k := by
  unfold gaussLegendre
  have hr := reqd_eq d
  split
  · next h =>
    have : k ≤ 1 := by omega
    simp only [quadSum, List.map_cons, List.map_nil, List.sum_cons, List.sum_nil]
    interval_cases k <;> norm_num [mom]
  · next h => exact two k (by omega)
  · next h => exact three k (by omega)
  · next h => exact four k (by omega)
  · next h => exact five k (by omega)
  · exact golub_moment sol hs d k hk

/-- Number of nodes, position of nodes and sign of weights. -/
def Nice (n : ℕ) (l : List (ℝ × ℝ)) : Prop := l.length = n ∧ ∀ x ∈ l, -1 ≤ x.1 ∧ x.1 ≤ 1 ∧ 0 < x.2

theorem golub_nice (sol : Solver) (hs : SolvesSymmetric sol) (d : ℕ) : Nice (d / 2 + 1) (golubWelsch sol d) := by
  unfold golubWelsch
  rw [reqd_eq]
  rcases hd : d / 2 with _ | m
  · simp [Nice]
  · have hsp := hs (m + 2) _ (selfAdjoint_symm (lower (m + 2)))
    refine ⟨by simp, ?_⟩
    intro x hx
    simp only [List.mem_ofFn] at hx
    obtain ⟨i, rfl⟩ := hx
    have hb := node_bound hsp (by omega) i
    refine ⟨hb.1, hb.2, ?_⟩
    have := first_ne hsp (by omega) i
    exact mul_pos two_pos (pow_pos_of_ne this)
where
  pow_pos_of_ne {x : ℝ} (h : x ≠ 0) : 0 < x ^ 2 := by positivity

theorem gauss_nice (sol : Solver) (hs : SolvesSymmetric sol) (d : ℕ) : Nice (d / 2 + 1) (gaussLegendre sol d) := by
  have hr := reqd_eq d
  unfold gaussLegendre
  have hsq : ∀ x : ℝ, x ≤ 1 → √x ≤ 1 := fun x hx => Real.sqrt_le_one.2 hx
  have h0 : ∀ x : ℝ, 0 ≤ √x := Real.sqrt_nonneg
  split
  · next h => rw [← hr, h]; simp [Nice]
  · next h =>
    rw [← hr, h]
    have h1 : (1 : ℝ) ≤ √3 := Real.one_le_sqrt.2 (by norm_num)
    have h2 : 1 / √(3 : ℝ) ≤ 1 := by rw [div_le_one (by linarith)]; exact h1
    have h3 : 0 ≤ 1 / √(3 : ℝ) := by positivity
    simp only [Nice, List.forall_mem_cons]
    exact ⟨rfl, ⟨by linarith, by linarith, by norm_num⟩, ⟨by linarith, h2, by norm_num⟩, by simp⟩
  · next h =>
    rw [← hr, h]
    have h2 := hsq (3 / 5) (by norm_num)
    have h3 := h0 (3 / 5)
    simp only [Nice, List.forall_mem_cons]
    exact ⟨rfl, ⟨by linarith, by linarith, by norm_num⟩, ⟨by linarith, h2, by norm_num⟩, ⟨by norm_num, by norm_num, by norm_num⟩, by simp⟩
  · next h =>
    rw [← hr, h]
    have hs : √(30 : ℝ) ^ 2 = 30 := Real.sq_sqrt (by norm_num)
    have hs0 : 0 ≤ √(30 : ℝ) := Real.sqrt_nonneg _
    have hs1 : √(30 : ℝ) ≤ 6 := by nlinarith
    have a1 := hsq ((15 - 2 * √30) / 35) (by linarith)
    have a2 := h0 ((15 - 2 * √30) / 35)
    have b1 := hsq ((15 + 2 * √30) / 35) (by linarith)
    have b2 := h0 ((15 + 2 * √30) / 35)
    simp only [Nice, List.forall_mem_cons]
    exact ⟨rfl, ⟨by linarith, by linarith, by linarith⟩, ⟨by linarith, a1, by linarith⟩, ⟨by linarith, by linarith, by linarith⟩,
      ⟨by linarith, b1, by linarith⟩, by simp⟩
  · next h =>
    rw [← hr, h]
    have hs : √(70 : ℝ) ^ 2 = 70 := Real.sq_sqrt (by norm_num)
    have hs0 : 0 ≤ √(70 : ℝ) := Real.sqrt_nonneg _
    have hs1 : √(70 : ℝ) ≤ 9 := by nlinarith
    have ht1 : √(10 / 7 : ℝ) ≤ 2 := by rw [Real.sqrt_le_left (by norm_num)]; norm_num
    have ht0 := h0 (10 / 7)
    have a1 : √(5 - 2 * √(10 / 7 : ℝ)) ≤ 3 := by rw [Real.sqrt_le_left (by norm_num)]; linarith
    have a2 := h0 (5 - 2 * √(10 / 7))
    have b1 : √(5 + 2 * √(10 / 7 : ℝ)) ≤ 3 := by rw [Real.sqrt_le_left (by norm_num)]; linarith
    have b2 := h0 (5 + 2 * √(10 / 7))
    simp only [Nice, List.forall_mem_cons]
    exact ⟨rfl, ⟨by norm_num, by norm_num, by norm_num⟩, ⟨by linarith, by linarith, by linarith⟩, ⟨by linarith, by linarith, by linarith⟩,
      ⟨by linarith, by linarith, by linarith⟩, ⟨by linarith, by linarith, by linarith⟩, by simp⟩
  · exact golub_nice sol hs d

/-- From moments to polynomials, without rounding. -/
theorem poly_exact {t : List (ℝ × ℝ)} {d : ℕ} (hm : ∀ k ≤ d, quadSum t (fun x => x ^ k) = mom k) {r : ℝ[X]}
    (h : r.natDegree ≤ d) : quadSum t (fun x => r.eval x) = ∫ x in (-1 : ℝ)..1, r.eval x := by
  have := poly_bound (t := t) (ε := 0) (fun k hk => by rw [hm k hk, sub_self, abs_zero]) h
  rw [zero_mul] at this
  exact sub_eq_zero.1 (abs_nonpos_iff.1 this)

end Verif.GolubWelsch
