import Verif.Model.UniformMesh
import Mathlib.Tactic.FieldSimp
import Mathlib.Tactic.Ring
import Mathlib.Data.Rat.Defs
import Mathlib.Algebra.Order.Ring.Rat
/-! Lemmas for UniformMesh.lean. -/
namespace Verif.Props.UniformMesh
open Verif.UniformMesh Verif.MeshTopo

variable {K : Type} [Field K] [LinearOrder K] [IsStrictOrderedRing K]

theorem edgeLoop_spec (xmin h : K) (n : Nat) (s : Storage K) (hp : s.points.length = n + 1) (he : s.edges.length = n)
    (k : Nat) (hk : k ≤ n) :
    ∃ s', edgeLoop xmin h (List.range' (n - k) k) s = .ok s' ∧ s'.nodes = s.nodes ∧ s'.binfo = s.binfo ∧
      s'.points.length = n + 1 ∧ s'.edges.length = n ∧
      (∀ i, (n - k ≤ i ∧ i ≤ n ∧ 0 < k) → s'.points[i]? = some (xmin + h * (i : K))) ∧
      (∀ i, n - k ≤ i → i < n → s'.edges[i]? = some (i, i + 1)) ∧
      (∀ i, i < n - k → s'.points[i]? = s.points[i]? ∧ s'.edges[i]? = s.edges[i]?) := by
  induction k generalizing s with
  | zero =>
    refine ⟨s, by simp [edgeLoop], rfl, rfl, hp, he, ?_, ?_, ?_⟩
    · intro i h; omega
    · intro i h1 h2; omega
    · intro i _; exact ⟨rfl, rfl⟩
  | succ k ih =>
    have e1 : n - (k + 1) + 1 = n - k := by omega
    have hl : List.range' (n - (k + 1)) (k + 1) = (n - (k + 1)) :: List.range' (n - k) k := by
      rw [List.range'_succ, e1]
    obtain ⟨s', h1, h2, h3, h4, h5, h6, h7, h8⟩ := ih
      { s with points := (s.points.set (n - (k + 1)) (xmin + h * ((n - (k + 1) : Nat) : K))).set (n - (k + 1) + 1)
                  (xmin + h * ((n - (k + 1) + 1 : Nat) : K)),
               edges := s.edges.set (n - (k + 1)) (n - (k + 1), n - (k + 1) + 1) } (by simpa using hp) (by simpa using he) (by omega)
    refine ⟨s', ?_, h2, h3, h4, h5, ?_, ?_, ?_⟩
    · rw [hl]
      have p1 : n - (k + 1) < s.points.length := by omega
      have p2 : n - (k + 1) + 1 < s.points.length := by omega
      have p3 : n - (k + 1) < s.edges.length := by omega
      simp only [edgeLoop, setAt, p1, if_true, Outcome.bind_ok, List.length_set, p2, p3, h1]
    · rintro i ⟨hi1, hi2, _⟩
      by_cases hlt : i < n - k
      · have : i = n - (k + 1) := by omega
        subst this
        rw [(h8 _ hlt).1]
        have p1 : n - (k + 1) < s.points.length := by omega
        rw [List.getElem?_set_ne (by omega)]
        simp [p1]
      · by_cases hk0 : 0 < k
        · exact h6 i ⟨by omega, hi2, hk0⟩
        · have : k = 0 := by omega
          subst this
          have hin : i = n := by omega
          subst hin
          simp only [List.range'_zero, edgeLoop, Outcome.ok.injEq] at h1
          rw [← h1]
          have e2 : i - (0 + 1) + 1 = i := by omega
          have e3 : i < s.points.length := by omega
          simp only [e2]
          simp [e3]
    · intro i hi1 hi2
      by_cases hlt : i < n - k
      · have : i = n - (k + 1) := by omega
        subst this
        rw [(h8 _ hlt).2]
        have p3 : n - (k + 1) < s.edges.length := by omega
        simp [p3]
      · exact h7 i (by omega) hi2
    · intro i hi
      obtain ⟨a, b⟩ := h8 i (by omega)
      rw [a, b]
      constructor
      · rw [List.getElem?_set_ne (by omega), List.getElem?_set_ne (by omega)]
      · rw [List.getElem?_set_ne (by omega)]

theorem nodeLoop_spec (n k : Nat) (hk : k ≤ n) (v : List Nat) (hv : v.length = n) :
    ∃ v', nodeLoop (List.range' (n - k) k) v = .ok v' ∧ v'.length = n ∧
      (∀ i, n - k ≤ i → i < n → v'[i]? = some i) ∧ (∀ i, i < n - k → v'[i]? = v[i]?) := by
  induction k generalizing v with
  | zero => exact ⟨v, by simp [nodeLoop], hv, by intro i h1 h2; omega, fun _ _ => rfl⟩
  | succ k ih =>
    have e1 : n - (k + 1) + 1 = n - k := by omega
    have hl : List.range' (n - (k + 1)) (k + 1) = (n - (k + 1)) :: List.range' (n - k) k := by
      rw [List.range'_succ, e1]
    obtain ⟨v', h1, h2, h3, h4⟩ := ih (by omega) (v.set (n - (k + 1)) (n - (k + 1))) (by simpa using hv)
    have p1 : n - (k + 1) < v.length := by omega
    refine ⟨v', by rw [hl]; simp only [nodeLoop, setAt, p1, if_true, Outcome.bind_ok, h1], h2, ?_, ?_⟩
    · intro i hi1 hi2
      by_cases hlt : i < n - k
      · have : i = n - (k + 1) := by omega
        subst this
        rw [h4 _ hlt]; simp [p1]
      · exact h3 i (by omega) hi2
    · intro i hi
      rw [h4 i (by omega), List.getElem?_set_ne (by omega)]

end Verif.Props.UniformMesh
