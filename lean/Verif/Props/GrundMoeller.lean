import Verif.Lemmas.GmSimplex
/-!
C147: the Grundmann-Möller rules on simplices.
-/
namespace Verif.Props.GrundMoeller
open Verif Verif.Spec Verif.GrundMoeller Verif.Lemmas.GrundMoeller Verif.Lemmas.Compositions

/-- The inner loop goes once through every way to write `n` as an ordered sum of `k + 1` naturals, when the output
arrays have place for that many points. -/
theorem c147_compositions (n k room : ℕ) (hr : (n + k).choose k ≤ room) :
    ∃ l, betaLoop n (k + 1) room ⟨[], false, 0, 0⟩ = .ok l ∧ l.Nodup ∧ l.length = (n + k).choose k ∧
      ∀ b : List ℕ, b ∈ l ↔ b.length = k + 1 ∧ b.sum = n :=
  ⟨comps k n, betaLoop_ok n k room (by rw [length_comps]; exact hr), nodup_comps k n, length_comps k n, mem_comps k n⟩

/-- `gm_rule_size` counts the points that `gm_rule_set` writes, as long as the products in `i4_choose` fit in `int`. -/
theorem c147_size (s n : ℕ) (h : min s (n + 1) * (n + s + 1).choose s < 2 ^ 31) :
    ∃ l : List (List ℝ × ℝ), ruleSize s n = .ok l.length ∧ ruleSet s n l.length = .ok l ∧
      l.length = (n + s + 1).choose s ∧ ∀ q ∈ l, q.1.length = n :=
  ⟨pts s n, by rw [pts_length]; exact ruleSize_ok s n h, ruleSet_ok s n _ (pts_length s n).ge, pts_length s n,
    fun _ hq => pts_mem_length hq⟩

/-- In any dimension `n` the rule `s` gives the mean over the reference simplex of every monomial of degree at most
`2 s + 1` (which is `n! ∏ αⱼ! / (|α| + n)!`). -/
theorem c147_exact (s n room : ℕ) (h : (n + s + 1).choose s ≤ room) (α : List ℕ) (hl : α.length = n)
    (hd : α.sum ≤ 2 * s + 1) : ∃ l : List (List ℝ × ℝ), ruleSet s n room = .ok l ∧
      quadSum l (fun x => (List.zipWith (fun a t => t ^ a) α x).prod) =
        n.factorial * (α.map Nat.factorial).prod / (α.sum + n).factorial :=
  ⟨pts s n, ruleSet_ok s n room h, pts_mono s n α hl hd⟩

/-- The points are inside the simplex. -/
theorem c147_inside (s n room : ℕ) (h : (n + s + 1).choose s ≤ room) :
    ∃ l : List (List ℝ × ℝ), ruleSet s n room = .ok l ∧ ∀ q ∈ l, (∀ x ∈ q.1, 0 < x) ∧ q.1.sum < 1 :=
  ⟨pts s n, ruleSet_ok s n room h, fun _ hq => pts_inside hq⟩

/-- Tetrahedra: polynomials up to the degree asked are integrated, up to degree 669. -/
theorem c147_tetra {d : ℕ} (h : d ≤ 669) (p0 p1 p2 p3 : P3 ℝ) (f : Poly3) (hf : f.DegLE d) :
    ∃ l, tetra d p0 p1 p2 p3 = .ok l ∧ quadSum l (fun p => f.eval p.x p.y p.z) =
      tetInt (fun p => f.eval p.x p.y p.z) p0 p1 p2 p3 := tetra_exact h p0 p1 p2 p3 f hf

/-- The integral of a function over a tetrahedron, on an example: the volume of the unit tetrahedron is `1/6`. -/
example : ∃ l, tetra 4 ⟨0, 0, 0⟩ ⟨1, 0, 0⟩ ⟨0, 1, 0⟩ ⟨0, 0, 1⟩ = .ok l ∧
    quadSum l (fun p => p.x ^ 2 * p.y * p.z) = 2 / 5040 := by
  obtain ⟨l, h1, h2⟩ := c147_tetra (d := 4) (by norm_num) ⟨0, 0, 0⟩ ⟨1, 0, 0⟩ ⟨0, 1, 0⟩ ⟨0, 0, 1⟩ [(1, 2, 1, 1)]
    (by simp [Poly3.DegLE])
  refine ⟨l, h1, ?_⟩
  have e : (fun p : P3 ℝ => p.x ^ 2 * p.y * p.z) = fun p => Poly3.eval [(1, 2, 1, 1)] p.x p.y p.z := by
    funext p; simp [Poly3.eval]
  rw [e, h2]
  have := SpaceIntegral.refTet_mono 2 1 1
  have hv : vol6 (⟨0, 0, 0⟩ : P3 ℝ) ⟨1, 0, 0⟩ ⟨0, 1, 0⟩ ⟨0, 0, 1⟩ = 1 := by norm_num [vol6]
  unfold tetInt inTet
  rw [hv]
  have e3 : (fun u v w : ℝ => Poly3.eval [(1, 2, 1, 1)] (0 + u * (1 - 0) + v * (0 - 0) + w * (0 - 0))
      (0 + u * (0 - 0) + v * (1 - 0) + w * (0 - 0)) (0 + u * (0 - 0) + v * (0 - 0) + w * (1 - 0))) =
      fun u v w => u ^ 2 * v ^ 1 * w ^ 1 := by
    funext u v w; simp [Poly3.eval]
  dsimp only
  rw [e3, this]
  norm_num [Nat.factorial]

/-- The weights sum to the volume. -/
theorem c147_weights {d : ℕ} (h : d ≤ 669) (p0 p1 p2 p3 : P3 ℝ) :
    ∃ l, tetra d p0 p1 p2 p3 = .ok l ∧ (l.map Prod.snd).sum = Simplex.volume p0 p1 p2 p3 := by
  obtain ⟨l, h1, h2⟩ := c147_tetra h p0 p1 p2 p3 [(1, 0, 0, 0)] (by simp [Poly3.DegLE])
  refine ⟨l, h1, ?_⟩
  have e : (fun p : P3 ℝ => Poly3.eval [(1, 0, 0, 0)] p.x p.y p.z) = fun _ => 1 := by funext p; simp [Poly3.eval]
  rw [e] at h2
  have := SpaceIntegral.refTet_mono 0 0 0
  simp only [pow_zero, mul_one] at this
  unfold tetInt at h2
  rw [this] at h2
  simp only [quadSum, mul_one] at h2
  rw [Lemmas.Polyhedron.volume_vol6, show (l.map Prod.snd).sum = (l.map fun q => q.2).sum from rfl, h2]
  norm_num [Nat.factorial]
  ring

/-- Triangles: polynomials up to the degree asked are integrated, up to degree 3247. -/
theorem c147_tri {d : ℕ} (h : d ≤ 3247) (p0 p1 p2 : P2 ℝ) (f : Poly2) (hf : f.DegLE d) :
    ∃ l, tri d p0 p1 p2 = .ok l ∧ quadSum l (fun p => f.eval p.x p.y) = triInt p0 p1 p2 (fun p => f.eval p.x p.y) :=
  tri_exact h p0 p1 p2 f hf

example : ∃ l, tri 3 ⟨0, 0⟩ ⟨1, 0⟩ ⟨0, 1⟩ = .ok l ∧ quadSum l (fun p => p.x ^ 2 * p.y) = 2 / 120 := by
  obtain ⟨l, h1, h2⟩ := c147_tri (d := 3) (by norm_num) ⟨0, 0⟩ ⟨1, 0⟩ ⟨0, 1⟩ [(1, 2, 1)] (by simp [Poly2.DegLE])
  refine ⟨l, h1, ?_⟩
  have e : (fun p : P2 ℝ => p.x ^ 2 * p.y) = fun p => Poly2.eval [(1, 2, 1)] p.x p.y := by
    funext p; simp [Poly2.eval]
  rw [e, h2]
  have := PlaneIntegral.refTri_mono 2 1
  have hv : turn (⟨0, 0⟩ : P2 ℝ) ⟨1, 0⟩ ⟨0, 1⟩ = 1 := by norm_num [turn]
  unfold triInt
  rw [hv]
  have e3 : (fun u v : ℝ => Poly2.eval [(1, 2, 1)] (0 + u * (1 - 0) + v * (0 - 0)) (0 + u * (0 - 0) + v * (1 - 0))) =
      fun u v => u ^ 2 * v ^ 1 := by
    funext u v; simp [Poly2.eval]
  dsimp only
  rw [e3, this]
  norm_num [PlaneIntegral.triMom, Nat.factorial]

/-- Every larger degree makes `i4_choose` overflow. -/
theorem c147_overflow (d : ℕ) (p0 p1 p2 p3 : P3 ℝ) (q0 q1 q2 : P2 ℝ) :
    (670 ≤ d → ∃ m, tetra d p0 p1 p2 p3 = .ub m) ∧ (3248 ≤ d → ∃ m, tri d q0 q1 q2 = .ub m) := by
  constructor <;> intro h
  · obtain ⟨m, hm⟩ := rule3_ub h
    exact ⟨m, by unfold tetra; rw [hm, Outcome.bind_ub]⟩
  · obtain ⟨m, hm⟩ := rule2_ub h
    exact ⟨m, by unfold tri; rw [hm, Outcome.bind_ub]⟩

/-- From degree 2 on some weight is negative (unless the tetrahedron is flat). -/
theorem c147_negative {d : ℕ} (h2 : 2 ≤ d) (h : d ≤ 669) (p0 p1 p2 p3 : P3 ℝ) (hv : vol6 p0 p1 p2 p3 ≠ 0) :
    ∃ l, tetra d p0 p1 p2 p3 = .ok l ∧ ∃ q ∈ l, q.2 < 0 := by
  refine ⟨_, by unfold tetra; rw [rule3_ok h, Outcome.bind_ok], ?_⟩
  have hs : 1 ≤ ruleOf d := by unfold ruleOf; split_ifs <;> omega
  obtain ⟨q, hq, hn⟩ := pts_negative (n := 3) hs
  refine ⟨_, List.mem_map_of_mem hq, ?_⟩
  have : 0 < Simplex.volume p0 p1 p2 p3 := by
    rw [Lemmas.Polyhedron.volume_vol6]; have := abs_pos.2 hv; positivity
  exact mul_neg_of_neg_of_pos hn this

example : vol6 (⟨0, 0, 0⟩ : P3 ℝ) ⟨1, 0, 0⟩ ⟨0, 1, 0⟩ ⟨0, 0, 1⟩ ≠ 0 := by norm_num [vol6]

/-- Degrees 0 and 1 use the barycentre alone. -/
example : ruleSet 0 3 1 = .ok ([([1 / 4, 1 / 4, 1 / 4], 1)] : List (List ℚ × ℚ)) := by decide +kernel

/-- The five points of the rule of degree 3, with the negative weight of the barycentre. -/
example : ruleSet 1 3 5 = .ok ([([1 / 6, 1 / 6, 1 / 6], 9 / 20), ([1 / 2, 1 / 6, 1 / 6], 9 / 20),
    ([1 / 6, 1 / 2, 1 / 6], 9 / 20), ([1 / 6, 1 / 6, 1 / 2], 9 / 20), ([1 / 4, 1 / 4, 1 / 4], -4 / 5)] :
    List (List ℚ × ℚ)) := by decide +kernel

/-- With less room the points are written past the end of the arrays. -/
example : ruleSet 1 3 4 = (.ub "gm_rule_set: write past the end" : Outcome (List (List ℚ × ℚ))) := by decide +kernel

end Verif.Props.GrundMoeller
