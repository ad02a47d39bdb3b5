import Verif.Model.SingleMesh
import Verif.Spec.FaceLookup
import Verif.Lemmas.Lookup
import Verif.Lemmas.Sort
import Verif.Props.Lookup
import Mathlib.Data.List.Lex
import Mathlib.Tactic.Convert
/-! Lemmas on the single-polygon mesh. -/
namespace Verif.SingleMesh
open Verif.Spec Verif.Lookup

theorem genericFaces_ok (store : List (List Nat)) (is : List Nat) (h : ∀ i ∈ is, i < store.length) :
    ∃ fs, genericFaces store is = .ok fs ∧ fs.map some = is.map (store[·]?) := by
  induction is with
  | nil => exact ⟨[], rfl, rfl⟩
  | cons i is ih =>
    obtain ⟨fs, h1, h2⟩ := ih fun j hj => h j (List.mem_cons_of_mem _ hj)
    have hi : i < store.length := h i (by simp)
    refine ⟨store[i] :: fs, ?_, ?_⟩
    · simp [genericFaces, h1, hi]
    · simp [h2, hi]

theorem polygonEdge_eq (n i : Nat) (hn : 3 ≤ n) (hi : i < n) :
    polygonEdge n i = if i + 1 = n then [0, n - 1] else [i, i + 1] := by
  unfold polygonEdge
  dsimp only
  split_ifs with h
  · rw [h, Nat.mod_self, ← h]; rfl
  · rw [Nat.mod_eq_of_lt (by omega)]

theorem polygonEdge_inj (n i j : Nat) (hn : 3 ≤ n) (hi : i < n) (hj : j < n)
    (h : polygonEdge n i = polygonEdge n j) : i = j := by
  rw [polygonEdge_eq n i hn hi, polygonEdge_eq n j hn hj] at h
  split_ifs at h <;> simp at h <;> omega

theorem polygonEdges_nodup (n : Nat) (hn : 3 ≤ n) : ((List.range n).map (polygonEdge n)).Nodup := by
  rw [List.nodup_map_iff_inj_on List.nodup_range]
  intro i hi j hj h
  exact polygonEdge_inj n i j hn (List.mem_range.1 hi) (List.mem_range.1 hj) h

theorem sortFaces_strict (l : List (List Nat)) (h : l.Nodup) : StrictSorted (sortFaces l) := by
  have h1 := Sort.sortBy_sorted (fun a b : List Nat => decide (a < b))
    (by
      intro a b h hab
      have h1 : ¬ a < b := by simpa using h
      have h2 : b < a := (lt_or_gt_of_ne hab).resolve_left (by convert h1)
      exact decide_eq_true (by convert h2))
    (by
      intro a b c h1 h2
      have h3 : a < b := by simpa using h1
      have h4 : b < c := by simpa using h2
      exact decide_eq_true (List.lt_trans h3 h4)) l h
  have h2 : (sortFaces l).Pairwise (· < ·) := h1.imp fun h => by simpa using h
  rw [show StrictSorted (sortFaces l) ↔ _ from strictSorted_iff_pairwise (sortFaces l)]
  exact h2

/-- In a strictly sorted container every entry is found. -/
theorem found_of_mem (store : List (List Nat)) (hs : StrictSorted store) (f : List Nat) (hf : f ∈ store) :
    Found store f := by
  obtain ⟨i, h1, _, h3⟩ := (Lookup.c03_lookup store hs f).2.2 hf
  refine ⟨i, by convert h1; rfl, ?_⟩
  unfold at_ at h3
  cases h : store[i]? with
  | none => rw [h] at h3; simp at h3
  | some y => rw [h] at h3; simp at h3; rw [h3]

end Verif.SingleMesh
