import Verif.Lemmas.Arbq
import Mathlib.Analysis.Real.Sqrt
import Mathlib.Tactic.NormNum.BigOperators
/-!
C149: the rules of Xiao and Gimbutas on tetrahedra.
-/
namespace Verif.Props.Arbq
open Verif Verif.Spec Verif.Quad Verif.Lemmas.Arbq

section stored
variable {tab : List TetRule} (ht : List.Forall₂ StoredTet (arbqRules.map literalTet) tab) {c : ArbqConsts}
  (hc : StoredNums literalConsts.toList c.toList)
include ht hc

omit hc in
/-- Up to degree 15 the rule exists and has the number of points that `tetrahedron_arbq_size` tells; degree 0 uses the
rule of degree 1. -/
theorem c149_size {d : ℕ} (h : d ≤ 15) (p0 p1 p2 p3 : P3 ℝ) :
    ∃ l, arbq tab c d p0 p1 p2 p3 = .ok l ∧
      l.length = [1, 1, 4, 6, 11, 14, 23, 31, 44, 57, 74, 95, 122, 146, 177, 214].getD d 0 := arbq_length ht h p0 p1 p2 p3

/-- Polynomials of the degree asked are integrated, within `4·10^(-14)` times the volume times the sum of the sizes of
the coefficients in the frame of the vertices. -/
theorem c149_exact {d : ℕ} (h : d ≤ 15) (p0 p1 p2 p3 : P3 ℝ) (f : P3 ℝ → ℝ) (g : Poly3) (hd : g.DegLE (max d 1))
    (hg : ∀ u v w, f (inTet p0 p1 p2 p3 u v w) = g.eval u v w) :
    ∃ l, arbq tab c d p0 p1 p2 p3 = .ok l ∧
      |quadSum l f - tetInt f p0 p1 p2 p3| ≤ |vol6 p0 p1 p2 p3| / 6 * (4 / 10 ^ 14 * g.size 1) :=
  ⟨_, arbq_ok ht h p0 p1 p2 p3, arbq_exact ht hc h p0 p1 p2 p3 f g hd hg⟩

/-- The weights are positive and sum to the volume within `10^(-15)`, relatively. -/
theorem c149_weights {d : ℕ} (h : d ≤ 15) (p0 p1 p2 p3 : P3 ℝ) (hv : vol6 p0 p1 p2 p3 ≠ 0) :
    ∃ l, arbq tab c d p0 p1 p2 p3 = .ok l ∧ (∀ q ∈ l, 0 < q.2) ∧
      |(l.map Prod.snd).sum - |vol6 p0 p1 p2 p3| / 6| ≤ 1 / 10 ^ 15 * (|vol6 p0 p1 p2 p3| / 6) :=
  ⟨_, arbq_ok ht h p0 p1 p2 p3, fun _ hq => (arbq_mem ht hc h hq).2 hv, arbq_sum ht hc h p0 p1 p2 p3⟩

/-- The points are inside the tetrahedron. -/
theorem c149_inside {d : ℕ} (h : d ≤ 15) (p0 p1 p2 p3 : P3 ℝ) :
    ∃ l, arbq tab c d p0 p1 p2 p3 = .ok l ∧ ∀ q ∈ l, ∃ u v w, 0 < u ∧ 0 < v ∧ 0 < w ∧ u + v + w < 1 ∧
      q.1 = inTet p0 p1 p2 p3 u v w :=
  ⟨_, arbq_ok ht h p0 p1 p2 p3, fun _ hq => (arbq_mem ht hc h hq).1⟩

/-- The number `1`, which every rule integrates to the volume. -/
example : ∃ l, arbq tab c 7 ⟨0, 0, 0⟩ ⟨2, 0, 0⟩ ⟨0, 3, 0⟩ ⟨0, 0, 1⟩ = .ok l ∧ l.length = 31 ∧
    |quadSum l (fun _ => 1) - tetInt (fun _ => 1) ⟨0, 0, 0⟩ ⟨2, 0, 0⟩ ⟨0, 3, 0⟩ ⟨0, 0, 1⟩| ≤ 4 / 10 ^ 14 := by
  obtain ⟨l, h1, h2⟩ := c149_size ht (d := 7) (by norm_num) ⟨0, 0, 0⟩ ⟨2, 0, 0⟩ ⟨0, 3, 0⟩ ⟨0, 0, 1⟩
  obtain ⟨l', h3, h4⟩ := c149_exact ht hc (d := 7) (by norm_num) ⟨0, 0, 0⟩ ⟨2, 0, 0⟩ ⟨0, 3, 0⟩ ⟨0, 0, 1⟩ (fun _ => 1)
    [(1, 0, 0, 0)] (by simp [Poly3.DegLE]) (by simp [Poly3.eval])
  rw [h1] at h3
  injection h3 with h3
  subst h3
  refine ⟨l, h1, h2, h4.trans ?_⟩
  norm_num [vol6, Poly3.size]

end stored

/-- The tables as written meet the hypotheses. -/
example : List.Forall₂ StoredTet (arbqRules.map literalTet) (arbqRules.map literalTet) ∧
    StoredNums literalConsts.toList literalConsts.toList := by
  refine ⟨List.forall₂_same.2 fun r _ => List.forall₂_same.2 fun e _ => ?_, List.forall₂_same.2 fun e _ => ?_⟩
  · have := halfUlp_pos
    simp only [sub_self, abs_zero]
    exact ⟨this.le, this.le, this.le, mul_nonneg this.le (abs_nonneg _)⟩
  · simpa using halfUlp_pos.le

/-- Degrees above 15 end the program. -/
theorem c149_degree (tab : List TetRule) (c : ArbqConsts) {d : ℕ} (h : 15 < d) (h' : d < 2 ^ 31) (p0 p1 p2 p3 : P3 ℝ) :
    ∃ m, arbq tab c d p0 p1 p2 p3 = .throws m := by
  have e : toInt32 d = d := by
    unfold toInt32; rw [Nat.mod_eq_of_lt (h'.trans (by norm_num)), if_pos h']
  refine ⟨"TETRAHEDRON_ARBQ_SIZE - Fatal error!", ?_⟩
  unfold arbq arbqSize
  dsimp only
  have n0 : ¬((d : ℤ) = 0) := by omega
  rw [e, if_neg n0, if_pos (Or.inr (by omega))]
  rfl

/-- The degree is narrowed to `int`: `2^32 + 1` gives the rule of degree 1. -/
theorem c149_wrap (tab : List TetRule) (c : ArbqConsts) (p0 p1 p2 p3 : P3 ℝ) :
    arbq tab c (2 ^ 32 + 1) p0 p1 p2 p3 = arbq tab c 1 p0 p1 p2 p3 := by
  have e : toInt32 (2 ^ 32 + 1) = toInt32 1 := by decide +kernel
  unfold arbq
  rw [e]

end Verif.Props.Arbq
