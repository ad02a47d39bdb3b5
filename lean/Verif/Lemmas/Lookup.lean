import Verif.Model.Lookup
import Verif.Spec.Order
import Mathlib.Order.Basic
import Mathlib.Data.List.Sort
/-! Lemmas on the binary search and on `unique`. -/
namespace Verif.Lookup
open Verif.Spec

/-- Loop invariant of the binary search on a predicate that never goes from false to true. -/
theorem lowerBoundLoop_spec (p : Nat → Bool) (first len : Nat)
    (hmono : ∀ i j, first ≤ i → i ≤ j → j < first + len → p j = true → p i = true) :
    first ≤ lowerBoundLoop p first len ∧ lowerBoundLoop p first len ≤ first + len ∧
    (∀ i, first ≤ i → i < lowerBoundLoop p first len → p i = true) ∧
    (∀ i, lowerBoundLoop p first len ≤ i → i < first + len → p i = false) := by
  induction first, len using lowerBoundLoop.induct p with
  | case1 first =>
    rw [lowerBoundLoop]; simp; constructor <;> intros <;> omega
  | case2 first len h half mid hp ih =>
    have hh : len / 2 < len := by omega
    rw [lowerBoundLoop, dif_neg h]
    have hmid : mid = first + len / 2 := rfl
    have hhalf : half = len / 2 := rfl
    simp only [← hhalf]
    rw [show first + half = mid from rfl, if_pos hp]
    obtain ⟨h1, h2, h3, h4⟩ := ih (fun i j hi hij hj => hmono i j (by omega) hij (by omega))
    refine ⟨by omega, by omega, ?_, ?_⟩
    · intro i hi hlt
      by_cases hc : i ≤ mid
      · exact hmono i mid hi hc (by omega) hp
      · exact h3 i (by omega) hlt
    · intro i hi hlt; exact h4 i hi (by omega)
  | case3 first len h half mid hp ih =>
    have hh : len / 2 < len := by omega
    rw [lowerBoundLoop, dif_neg h]
    have hmid : mid = first + len / 2 := rfl
    have hhalf : half = len / 2 := rfl
    simp only [← hhalf]
    rw [show first + half = mid from rfl, if_neg hp]
    obtain ⟨h1, h2, h3, h4⟩ := ih (fun i j hi hij hj => hmono i j (by omega) hij (by omega))
    refine ⟨by omega, by omega, h3, ?_⟩
    intro i hi hlt
    by_cases hc : i < first + half
    · exact h4 i hi hc
    · by_contra hne
      have := hmono mid i (by omega) (by omega) hlt (by simpa using hne)
      exact hp this

theorem lowerBoundReads_range (p : Nat → Bool) (first len : Nat) :
    ∀ i ∈ lowerBoundReads p first len, first ≤ i ∧ i < first + len := by
  induction first, len using lowerBoundLoop.induct p with
  | case1 first => rw [lowerBoundReads]; simp
  | case2 first len h half mid hp ih =>
    have hmid : mid = first + len / 2 := rfl
    have hhalf : half = len / 2 := rfl
    rw [lowerBoundReads, dif_neg h]
    simp only [← hhalf]
    rw [show first + half = mid from rfl, if_pos hp]
    intro i hi
    rcases List.mem_cons.1 hi with rfl | hi
    · omega
    · have := ih i hi; omega
  | case3 first len h half mid hp ih =>
    have hmid : mid = first + len / 2 := rfl
    have hhalf : half = len / 2 := rfl
    rw [lowerBoundReads, dif_neg h]
    simp only [← hhalf]
    rw [show first + half = mid from rfl, if_neg hp]
    intro i hi
    rcases List.mem_cons.1 hi with rfl | hi
    · omega
    · have := ih i hi; omega

section
variable {α : Type} [LinearOrder α]

theorem strictSorted_iff_pairwise (l : List α) : StrictSorted l ↔ l.Pairwise (· < ·) := by
  rw [List.pairwise_iff_getElem]; rfl

theorem below_eq (v : List α) (x : α) (i : Nat) (h : i < v.length) :
    below v x i = decide (v[i] < x) := by
  simp [below, h]

/-- Full characterisation of `lower_bound` on a sorted container. -/
theorem lowerBound_spec (v : List α) (x : α) (hs : v.Pairwise (· ≤ ·)) :
    lowerBound v x ≤ v.length ∧
    (∀ i (h : i < v.length), i < lowerBound v x → v[i] < x) ∧
    (∀ i (h : i < v.length), lowerBound v x ≤ i → x ≤ v[i]) := by
  have hm := List.pairwise_iff_getElem.1 hs
  have key := lowerBoundLoop_spec (below v x) 0 v.length (by
    intro i j _ hij hj hp
    have hj' : j < v.length := by omega
    rw [below_eq v x j hj'] at hp
    rw [below_eq v x i (by omega)]
    simp only [decide_eq_true_eq] at hp ⊢
    rcases Nat.lt_or_eq_of_le hij with h | h
    · exact lt_of_le_of_lt (hm i j (by omega) hj' h) hp
    · subst h; exact hp)
  obtain ⟨_, h2, h3, h4⟩ := key
  refine ⟨by simpa [lowerBound] using h2, ?_, ?_⟩
  · intro i h hlt
    have := h3 i (by omega) hlt
    rw [below_eq v x i h] at this
    simpa using this
  · intro i h hle
    have := h4 i hle (by omega)
    rw [below_eq v x i h] at this
    simpa using this

/-- On a strictly sorted container, `lower_bound` of a stored element is its position. -/
theorem lowerBound_getElem (v : List α) (hs : StrictSorted v) (i : Nat) (h : i < v.length) :
    lowerBound v v[i] = i := by
  have hp := (strictSorted_iff_pairwise v).1 hs
  obtain ⟨h1, h2, h3⟩ := lowerBound_spec v v[i] (hp.imp le_of_lt)
  rcases Nat.lt_trichotomy (lowerBound v v[i]) i with hlt | heq | hgt
  · have hl : lowerBound v v[i] < v.length := by omega
    have := h3 _ hl le_rfl
    exact absurd (hs _ _ hl h hlt) (not_lt.2 this)
  · exact heq
  · exact absurd (h2 i h hgt) (lt_irrefl _)

/-! ### unique -/

theorem mem_uniqueFrom (last x : α) (l : List α) :
    x ∈ uniqueFrom last l → x ∈ l := by
  induction l generalizing last with
  | nil => simp [uniqueFrom]
  | cons y ys ih =>
    simp only [uniqueFrom]
    split
    · intro h; exact List.mem_cons_of_mem _ (ih _ h)
    · intro h
      rcases List.mem_cons.1 h with rfl | h
      · simp
      · exact List.mem_cons_of_mem _ (ih _ h)

theorem mem_uniqueFrom_of (last x : α) (l : List α) (hx : x ∈ l) :
    x = last ∨ x ∈ uniqueFrom last l := by
  induction l generalizing last with
  | nil => simp at hx
  | cons y ys ih =>
    simp only [uniqueFrom]
    rcases List.mem_cons.1 hx with rfl | hx
    · split
      · next h => exact Or.inl h.symm
      · exact Or.inr (by simp)
    · split
      · exact ih _ hx
      · rcases ih y hx with rfl | h
        · exact Or.inr (by simp)
        · exact Or.inr (List.mem_cons_of_mem _ h)

theorem mem_unique (x : α) (l : List α) : x ∈ unique l ↔ x ∈ l := by
  cases l with
  | nil => simp [unique]
  | cons y ys =>
    simp only [unique, List.mem_cons]
    constructor
    · rintro (h | h)
      · exact Or.inl h
      · exact Or.inr (mem_uniqueFrom _ _ _ h)
    · rintro (h | h)
      · exact Or.inl h
      · exact mem_uniqueFrom_of y x ys h

theorem uniqueFrom_sorted (last : α) (l : List α) (hs : l.Pairwise (· ≤ ·))
    (hl : ∀ x ∈ l, last ≤ x) :
    (uniqueFrom last l).Pairwise (· < ·) ∧ ∀ x ∈ uniqueFrom last l, last < x := by
  induction l generalizing last with
  | nil => simp [uniqueFrom]
  | cons y ys ih =>
    rw [List.pairwise_cons] at hs
    simp only [uniqueFrom]
    split
    · exact ih last hs.2 (fun x hx => hl x (List.mem_cons_of_mem _ hx))
    · next hne =>
      have hly : last < y := lt_of_le_of_ne (hl y (by simp)) hne
      obtain ⟨h1, h2⟩ := ih y hs.2 hs.1
      refine ⟨List.pairwise_cons.2 ⟨h2, h1⟩, ?_⟩
      intro x hx
      rcases List.mem_cons.1 hx with rfl | hx
      · exact hly
      · exact lt_trans hly (h2 x hx)

theorem unique_sorted (l : List α) (hs : l.Pairwise (· ≤ ·)) : (unique l).Pairwise (· < ·) := by
  cases l with
  | nil => simp [unique]
  | cons y ys =>
    rw [List.pairwise_cons] at hs
    obtain ⟨h1, h2⟩ := uniqueFrom_sorted y ys hs.2 hs.1
    exact List.pairwise_cons.2 ⟨h2, h1⟩

/-- A strictly sorted list is determined by its elements. -/
theorem strict_ext (l l' : List α) (h : l.Pairwise (· < ·)) (h' : l'.Pairwise (· < ·))
    (hm : ∀ x, x ∈ l ↔ x ∈ l') : l = l' := by
  have hn : l.Nodup := h.imp ne_of_lt
  have hn' : l'.Nodup := h'.imp ne_of_lt
  have hperm : l.Perm l' := (List.perm_ext_iff_of_nodup hn hn').2 hm
  exact hperm.eq_of_pairwise (le := (· < ·)) (fun a b _ _ hab hba => absurd hab (lt_asymm hba)) h h'

theorem mergeSort_sorted (v : List α) :
    (v.mergeSort (fun a b => decide (¬ (b < a)))).Pairwise (· ≤ ·) := by
  have := List.pairwise_mergeSort (le := fun a b : α => decide (¬ (b < a)))
    (by intro a b c; simp only [decide_eq_true_eq, not_lt]; exact le_trans)
    (by intro a b; simp only [Bool.or_eq_true, decide_eq_true_eq, not_lt]; exact le_total a b) v
  refine this.imp ?_
  intro a b h; simpa using h

end
end Verif.Lookup
