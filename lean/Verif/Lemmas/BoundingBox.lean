import Verif.Model.BoundingBox
import Verif.Spec.BoundingBox
import Mathlib.Data.List.FinRange
import Mathlib.Data.Fin.VecNotation
/-! Lemmas for BoundingBox.lean. -/
namespace Verif.Props.BoundingBox
open Verif.BoundingBox Verif.Spec.BoundingBox

variable {K : Type} [LinearOrder K] {d : Nat}

theorem ltFlag_iff (lo p : Fin d → K) : ltFlag lo p = true ↔ ∃ i, p i < lo i := by
  simp [ltFlag]

theorem gtFlag_iff (hi p : Fin d → K) : gtFlag hi p = true ↔ ∃ i, hi i < p i := by
  simp [gtFlag]

/-- With asserts compiled out the loop always finishes, on two of the points it has seen. -/
theorem loop_mem (ps : List (Fin d → K)) (lo hi : Fin d → K) :
    ∃ lo' hi', loop true ps lo hi = .ok (lo', hi') ∧ lo' ∈ lo :: ps ∧ hi' ∈ hi :: ps := by
  induction ps generalizing lo hi with
  | nil => exact ⟨lo, hi, rfl, by simp, by simp⟩
  | cons p ps ih =>
    obtain ⟨lo', hi', h1, h2, h3⟩ := ih (if ltFlag lo p then p else lo) (if gtFlag hi p then p else hi)
    refine ⟨lo', hi', by simpa [loop] using h1, ?_, ?_⟩
    · rw [List.mem_cons] at h2
      rcases h2 with h2 | h2
      · split at h2 <;> simp [h2]
      · simp [h2]
    · rw [List.mem_cons] at h3
      rcases h3 with h3 | h3
      · split at h3 <;> simp [h3]
      · simp [h3]

theorem loop_chain (seen ps : List (Fin d → K)) (lo hi : Fin d → K) (hlo : lo ∈ seen) (hhi : hi ∈ seen)
    (hc : Contains lo hi seen) (hcomp : ∀ p ∈ seen ++ ps, ∀ q ∈ seen ++ ps, Comparable p q) :
    ∃ lo' hi', loop true ps lo hi = .ok (lo', hi') ∧ lo' ∈ seen ++ ps ∧ hi' ∈ seen ++ ps ∧
      Contains lo' hi' (seen ++ ps) := by
  induction ps generalizing seen lo hi with
  | nil => exact ⟨lo, hi, rfl, by simpa using hlo, by simpa using hhi, by simpa using hc⟩
  | cons p ps ih =>
    have hp1 : p ∈ seen ++ p :: ps := by simp
    have e : seen ++ p :: ps = (seen ++ [p]) ++ ps := by simp
    have hlo' : (if ltFlag lo p then p else lo) ∈ seen ++ [p] := by split <;> simp [hlo]
    have hhi' : (if gtFlag hi p then p else hi) ∈ seen ++ [p] := by split <;> simp [hhi]
    have key : Contains (if ltFlag lo p then p else lo) (if gtFlag hi p then p else hi) (seen ++ [p]) := by
      have hlp : ∀ i, (if ltFlag lo p then p else lo) i ≤ p i ∧ (if ltFlag lo p then p else lo) i ≤ lo i := by
        intro i
        split
        · rename_i h
          obtain ⟨j, hj⟩ := (ltFlag_iff lo p).1 h
          refine ⟨le_refl _, ?_⟩
          rcases hcomp p hp1 lo (by simp [hlo]) with h' | h'
          · exact h' i
          · exact absurd (h' j) (not_le.2 hj)
        · rename_i h
          refine ⟨?_, le_refl _⟩
          by_contra hcon
          exact h ((ltFlag_iff lo p).2 ⟨i, not_le.1 hcon⟩)
      have hhp : ∀ i, p i ≤ (if gtFlag hi p then p else hi) i ∧ hi i ≤ (if gtFlag hi p then p else hi) i := by
        intro i
        split
        · rename_i h
          obtain ⟨j, hj⟩ := (gtFlag_iff hi p).1 h
          refine ⟨le_refl _, ?_⟩
          rcases hcomp hi (by simp [hhi]) p hp1 with h' | h'
          · exact h' i
          · exact absurd (h' j) (not_le.2 hj)
        · rename_i h
          refine ⟨?_, le_refl _⟩
          by_contra hcon
          exact h ((gtFlag_iff hi p).2 ⟨i, not_le.1 hcon⟩)
      intro q hq i
      rw [List.mem_append, List.mem_singleton] at hq
      rcases hq with hq | rfl
      · exact ⟨le_trans (hlp i).2 (hc q hq i).1, le_trans (hc q hq i).2 (hhp i).2⟩
      · exact ⟨(hlp i).1, (hhp i).1⟩
    obtain ⟨lo', hi', h1, h2, h3, h4⟩ := ih (seen ++ [p]) _ _ hlo' hhi' key (by rw [← e]; exact hcomp)
    exact ⟨lo', hi', by simpa [loop] using h1, by rw [e]; exact h2, by rw [e]; exact h3, by rw [e]; exact h4⟩

end Verif.Props.BoundingBox
