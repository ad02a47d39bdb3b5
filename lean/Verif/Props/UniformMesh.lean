import Verif.Lemmas.UniformMesh
import Verif.Model.UniformMesh
import Mathlib.Tactic.FieldSimp
import Mathlib.Tactic.Ring
import Mathlib.Data.Rat.Defs
import Mathlib.Algebra.Order.Ring.Rat
/-!
Property C29.
-/
namespace Verif.Props.UniformMesh
open Verif.UniformMesh Verif.MeshTopo

variable {K : Type} [Field K] [LinearOrder K] [IsStrictOrderedRing K]

/-- C29. The loader creates `N+1` equally spaced nodes from `x_min` to `x_max`, `N` edges joining
consecutive nodes, and marks exactly the two end nodes as boundary. -/
theorem c29_uniform (xmin xmax : K) (n : Nat) (hn : 1 ≤ n) (hx : xmin < xmax) :
    ∃ s, populate xmin xmax n = .ok s ∧
      s.points.length = n + 1 ∧ s.nodes = List.range (n + 1) ∧ s.edges.length = n ∧ s.binfo.length = n + 1 ∧
      (∀ i, i ≤ n → s.points[i]? = some (xmin + (xmax - xmin) / (n : K) * (i : K))) ∧
      s.points[0]? = some xmin ∧ s.points[n]? = some xmax ∧
      (∀ i, i < n → s.edges[i]? = some (i, i + 1)) ∧
      (∀ i d, s.binfo[i]? = some d → (d.isB = true ↔ i = 0 ∨ i = n)) := by
  have hn0 : n ≠ 0 := by omega
  have hnK : (n : K) ≠ 0 := Nat.cast_ne_zero.2 hn0
  have habs : |xmax - xmin| = xmax - xmin := abs_of_pos (sub_pos.2 hx)
  obtain ⟨s, h1, h2, _, h4, h5, h6, h7, _⟩ := edgeLoop_spec xmin (|xmax - xmin| / (n : K)) n
    ⟨List.replicate (n + 1) 0, List.replicate (n + 1) 0, List.replicate n (0, 0), []⟩ (by simp) (by simp) n (by omega)
  rw [Nat.sub_self, ← List.range_eq_range'] at h1
  obtain ⟨v, k1, k2, k3, _⟩ := nodeLoop_spec (n + 1) (n + 1) (by omega) (List.replicate (n + 1) 0) (by simp)
  rw [Nat.sub_self, ← List.range_eq_range'] at k1
  have hv : v = List.range (n + 1) := by
    apply List.ext_getElem? 
    intro i
    by_cases hi : i < n + 1
    · rw [k3 i (by omega) hi]; simp [hi]
    · rw [List.getElem?_eq_none (by omega), List.getElem?_eq_none (by simp; omega)]
  have hpt : ∀ i, i ≤ n → s.points[i]? = some (xmin + (xmax - xmin) / (n : K) * (i : K)) := by
    intro i hi
    rw [h6 i ⟨by omega, hi, by omega⟩, habs]
  refine ⟨{ s with nodes := v, binfo := ((List.replicate (n + 1) BDesc.default).set 0 (BDesc.mk2 0 true)).set n (BDesc.mk2 0 true) },
    ?_, h4, hv, h5, by simp, hpt, ?_, ?_, ?_, ?_⟩
  · simp only [populate, if_neg hn0, h1, Outcome.bind_ok]
    rw [h2]
    simp only [k1, Outcome.bind_ok, setAt, List.length_replicate, Nat.zero_lt_succ, if_true, List.length_set,
      Nat.add_sub_cancel, Nat.lt_succ_self]
  · have := hpt 0 (by omega)
    simpa using this
  · have := hpt n (Nat.le_refl n)
    rw [div_mul_cancel₀ _ hnK] at this
    simpa using this
  · intro i hi
    exact h7 i (by omega) hi
  · intro i d hd
    have hi : i < n + 1 := by
      have := (List.getElem?_eq_some_iff.1 hd).1
      simpa using this
    by_cases hin : i = n
    · subst hin
      have hd' : some (BDesc.mk2 0 true) = some d := by
        rw [← hd]; simp
      cases hd'
      simp [BDesc.mk2]
    · by_cases hi0 : i = 0
      · subst hi0
        have hd' : some (BDesc.mk2 0 true) = some d := by
          rw [← hd, List.getElem?_set_ne (by omega)]; simp
        cases hd'
        simp [BDesc.mk2]
      · have hd' : some BDesc.default = some d := by
          rw [← hd, List.getElem?_set_ne (by omega), List.getElem?_set_ne (by omega)]
          simp [hi]
        cases hd'
        simp [BDesc.default, hin, hi0]

example : (1 : Nat) ≤ 8 ∧ (0 : ℚ) < 1 := by norm_num

/-- C29. The end point is not reached when the interval is given backwards: the mesh then lies outside. -/
theorem c29_reversed (xmin xmax : K) (n : Nat) (hn : 1 ≤ n) (hx : xmax < xmin) :
    ∃ s, populate xmin xmax n = .ok s ∧ s.points[0]? = some xmin ∧ s.points[n]? = some (xmin + (xmin - xmax)) := by
  have hn0 : n ≠ 0 := by omega
  have hnK : (n : K) ≠ 0 := Nat.cast_ne_zero.2 hn0
  have habs : |xmax - xmin| = xmin - xmax := by rw [abs_of_neg (sub_neg.2 hx)]; ring
  obtain ⟨s, h1, h2, _, h4, h5, h6, h7, _⟩ := edgeLoop_spec xmin (|xmax - xmin| / (n : K)) n
    ⟨List.replicate (n + 1) 0, List.replicate (n + 1) 0, List.replicate n (0, 0), []⟩ (by simp) (by simp) n (by omega)
  rw [Nat.sub_self, ← List.range_eq_range'] at h1
  obtain ⟨v, k1, k2, k3, _⟩ := nodeLoop_spec (n + 1) (n + 1) (by omega) (List.replicate (n + 1) 0) (by simp)
  rw [Nat.sub_self, ← List.range_eq_range'] at k1
  refine ⟨{ s with nodes := v, binfo := ((List.replicate (n + 1) BDesc.default).set 0 (BDesc.mk2 0 true)).set n (BDesc.mk2 0 true) },
    ?_, ?_, ?_⟩
  · simp only [populate, if_neg hn0, h1, Outcome.bind_ok]
    rw [h2]
    simp only [k1, Outcome.bind_ok, setAt, List.length_replicate, Nat.zero_lt_succ, if_true, List.length_set,
      Nat.add_sub_cancel, Nat.lt_succ_self]
  · have := h6 0 ⟨by omega, by omega, by omega⟩
    simpa using this
  · have := h6 n ⟨by omega, by omega, by omega⟩
    rw [habs, div_mul_cancel₀ _ hnK] at this
    exact this

example : (1 : Nat) ≤ 2 ∧ (0 : ℚ) < 1 := by norm_num

end Verif.Props.UniformMesh
