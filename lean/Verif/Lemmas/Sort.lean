import Verif.Model.Sort
import Mathlib.Data.List.Sort
/-! Lemmas on the model of `std::sort`. -/
namespace Verif.Sort
universe u
variable {α : Type u}

theorem insertBy_perm (lt : α → α → Bool) (x : α) (l : List α) : (insertBy lt x l).Perm (x :: l) := by
  induction l with
  | nil => exact .refl _
  | cons y ys ih =>
    unfold insertBy
    split
    · exact (ih.cons y).trans (.swap x y ys)
    · exact .refl _

theorem sortBy_perm (lt : α → α → Bool) (l : List α) : (sortBy lt l).Perm l := by
  induction l with
  | nil => exact .refl _
  | cons x xs ih => exact (insertBy_perm lt x _).trans (ih.cons x)

theorem insertBy_sorted (lt : α → α → Bool) (htot : ∀ a b, lt a b = false → a ≠ b → lt b a = true)
    (htr : ∀ a b c, lt a b = true → lt b c = true → lt a c = true) (x : α) (l : List α)
    (hl : l.Pairwise fun a b => lt a b = true) (hx : x ∉ l) :
    (insertBy lt x l).Pairwise fun a b => lt a b = true := by
  induction l with
  | nil => simp [insertBy]
  | cons y ys ih =>
    rw [List.pairwise_cons] at hl
    have hxy : x ≠ y := fun h => hx (h ▸ List.mem_cons_self)
    have hxs : x ∉ ys := fun h => hx (List.mem_cons_of_mem _ h)
    unfold insertBy
    split
    · next h =>
      rw [List.pairwise_cons]
      refine ⟨?_, ih hl.2 hxs⟩
      intro z hz
      rcases List.mem_cons.1 ((insertBy_perm lt x ys).mem_iff.1 hz) with rfl | hz
      · exact h
      · exact hl.1 z hz
    · next h =>
      have hxy' := htot y x (by simpa using h) (Ne.symm hxy)
      rw [List.pairwise_cons]
      refine ⟨?_, List.pairwise_cons.2 hl⟩
      intro z hz
      rcases List.mem_cons.1 hz with rfl | hz
      · exact hxy'
      · exact htr _ _ _ hxy' (hl.1 z hz)

/-- Sorting elements that are all different gives a strictly increasing list. -/
theorem sortBy_sorted (lt : α → α → Bool) (htot : ∀ a b, lt a b = false → a ≠ b → lt b a = true)
    (htr : ∀ a b c, lt a b = true → lt b c = true → lt a c = true) (l : List α) (hl : l.Nodup) :
    (sortBy lt l).Pairwise fun a b => lt a b = true := by
  induction l with
  | nil => exact .nil
  | cons x xs ih =>
    rw [List.nodup_cons] at hl
    exact insertBy_sorted lt htot htr x _ (ih hl.2) fun h => hl.1 ((sortBy_perm lt xs).mem_iff.1 h)

theorem sortBy_id (lt : α → α → Bool) (hir : ∀ a b, lt a b = true → lt b a = false) (l : List α)
    (hl : l.Pairwise fun a b => lt a b = true) : sortBy lt l = l := by
  induction l with
  | nil => rfl
  | cons x xs ih =>
    rw [List.pairwise_cons] at hl
    rw [sortBy, ih hl.2]
    cases xs with
    | nil => rfl
    | cons y ys =>
      rw [insertBy, hir x y (hl.1 y List.mem_cons_self)]
      rfl

theorem insertBy_sorted' (lt : α → α → Bool)
    (htr : ∀ a b c, lt a b = true → lt b c = true → lt a c = true) (x : α) (l : List α)
    (hl : l.Pairwise fun a b => lt a b = true) (hx : ∀ y ∈ l, lt x y = true ∨ lt y x = true) :
    (insertBy lt x l).Pairwise fun a b => lt a b = true := by
  induction l with
  | nil => simp [insertBy]
  | cons y ys ih =>
    rw [List.pairwise_cons] at hl
    unfold insertBy
    split
    · next h =>
      rw [List.pairwise_cons]
      refine ⟨?_, ih hl.2 fun z hz => hx z (List.mem_cons_of_mem _ hz)⟩
      intro z hz
      rcases List.mem_cons.1 ((insertBy_perm lt x ys).mem_iff.1 hz) with rfl | hz
      · exact h
      · exact hl.1 z hz
    · next h =>
      have hxy' : lt x y = true := (hx y List.mem_cons_self).resolve_right h
      rw [List.pairwise_cons]
      refine ⟨?_, List.pairwise_cons.2 hl⟩
      intro z hz
      rcases List.mem_cons.1 hz with rfl | hz
      · exact hxy'
      · exact htr _ _ _ hxy' (hl.1 z hz)

/-- Sorting elements that are pairwise comparable gives a strictly increasing list. -/
theorem sortBy_sorted' (lt : α → α → Bool)
    (htr : ∀ a b c, lt a b = true → lt b c = true → lt a c = true) (l : List α)
    (hl : l.Pairwise fun a b => lt a b = true ∨ lt b a = true) :
    (sortBy lt l).Pairwise fun a b => lt a b = true := by
  induction l with
  | nil => exact .nil
  | cons x xs ih =>
    rw [List.pairwise_cons] at hl
    exact insertBy_sorted' lt htr x _ (ih hl.2) fun y hy => hl.1 y ((sortBy_perm lt xs).mem_iff.1 hy)

theorem insertBy_weak (lt : α → α → Bool) (has : ∀ a b, lt a b = true → lt b a = false)
    (hnt : ∀ a b c, lt b a = false → lt c b = false → lt c a = false) (x : α) (l : List α)
    (hl : l.Pairwise fun a b => lt b a = false) :
    (insertBy lt x l).Pairwise fun a b => lt b a = false := by
  induction l with
  | nil => simp [insertBy]
  | cons y ys ih =>
    rw [List.pairwise_cons] at hl
    unfold insertBy
    split
    · next h =>
      rw [List.pairwise_cons]
      refine ⟨?_, ih hl.2⟩
      intro z hz
      rcases List.mem_cons.1 ((insertBy_perm lt x ys).mem_iff.1 hz) with rfl | hz
      · exact has _ _ h
      · exact hl.1 z hz
    · next h =>
      have h : lt y x = false := by simpa using h
      rw [List.pairwise_cons]
      refine ⟨?_, List.pairwise_cons.2 hl⟩
      intro z hz
      rcases List.mem_cons.1 hz with rfl | hz
      · exact h
      · exact hnt _ _ _ h (hl.1 z hz)

/-- The result of sorting never decreases. -/
theorem sortBy_weak (lt : α → α → Bool) (has : ∀ a b, lt a b = true → lt b a = false)
    (hnt : ∀ a b c, lt b a = false → lt c b = false → lt c a = false) (l : List α) :
    (sortBy lt l).Pairwise fun a b => lt b a = false := by
  induction l with
  | nil => exact .nil
  | cons x xs ih => exact insertBy_weak lt has hnt x _ ih

end Verif.Sort
