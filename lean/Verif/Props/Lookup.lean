import Verif.Lemmas.Lookup
/-! C03, C04, C05: looking up and canonicalising element containers. -/
namespace Verif.Lookup
open Verif.Spec
variable {α : Type} [LinearOrder α]

/-- C03 (memory safety): the binary search only inspects positions inside the container, sorted or not. -/
theorem c03_reads_in_range (v : List α) (x : α) :
    ∀ i ∈ lowerBoundReads (below v x) 0 v.length, i < v.length := by
  intro i hi
  have := lowerBoundReads_range _ _ _ i hi
  omega

/-- C03 (found): `find_element_id` reports index `i` exactly when the element is stored at `i`. -/
theorem c03_found_iff (v : List α) (hs : StrictSorted v) (x : α) (i : Nat) :
    findElementId v x = (true, Ident.Ident.mk' i) ↔ v[i]? = some x := by
  have hp := (strictSorted_iff_pairwise v).1 hs
  obtain ⟨h1, h2, h3⟩ := lowerBound_spec v x (hp.imp le_of_lt)
  constructor
  · intro h
    unfold findElementId at h
    simp only at h
    split at h
    · next y hy =>
      split at h
      · next hxy =>
        simp only [Prod.mk.injEq, Ident.Ident.mk', Ident.Ident.mk.injEq] at h
        have hi : lowerBound v x = i := h.2.1
        have hl : lowerBound v x < v.length := by
          by_contra hc
          rw [List.getElem?_eq_none (by omega)] at hy
          cases hy
        rw [List.getElem?_eq_getElem hl] at hy
        have hy' : v[lowerBound v x] = y := by simpa using hy
        have := h3 _ hl le_rfl
        rw [hy'] at this
        have hxe : x = y := le_antisymm this (not_lt.1 hxy)
        rw [← hi, List.getElem?_eq_getElem hl, hy', hxe]
      · simp at h
    · simp at h
  · intro h
    have hi : i < v.length := by
      by_contra hc
      rw [List.getElem?_eq_none (by omega)] at h
      cases h
    have hx : v[i] = x := by
      rw [List.getElem?_eq_getElem hi] at h; simpa using h
    have hlb : lowerBound v x = i := by rw [← hx]; exact lowerBound_getElem v hs i hi
    unfold findElementId
    simp only [hlb, h]
    simp

/-- C03 (not found): `find_element_id` reports failure exactly when the element is not stored, and
then returns an unusable identifier. -/
theorem c03_not_found_iff (v : List α) (hs : StrictSorted v) (x : α) :
    ((findElementId v x).1 = false ↔ x ∉ v) ∧
    (x ∉ v → (findElementId v x).2.conv.Throws) := by
  have hcases : (∃ i, findElementId v x = (true, Ident.Ident.mk' i)) ∨
      findElementId v x = (false, Ident.Ident.invalid 0) := by
    unfold findElementId
    simp only
    split
    · split
      · exact Or.inl ⟨_, rfl⟩
      · exact Or.inr rfl
    · exact Or.inr rfl
  have hiff : (findElementId v x).1 = false ↔ x ∉ v := by
    constructor
    · intro hf hx
      obtain ⟨i, hi⟩ := List.mem_iff_getElem?.1 hx
      rw [(c03_found_iff v hs x i).2 hi] at hf
      simp at hf
    · intro hx
      rcases hcases with ⟨i, hi⟩ | h
      · exact absurd (List.mem_iff_getElem?.2 ⟨i, (c03_found_iff v hs x i).1 hi⟩) hx
      · rw [h]
  refine ⟨hiff, fun hx => ?_⟩
  rcases hcases with ⟨i, hi⟩ | h
  · have := hiff.2 hx; rw [hi] at this; simp at this
  · rw [h]; simp [Ident.Ident.conv, Ident.Ident.invalid]

/-- C03 (lookup): on a sorted repetition-free container `lookup` throws exactly for absent elements,
and otherwise returns a convertible identifier `i` such that `mesh[i]` is the element. -/
theorem c03_lookup (v : List α) (hs : StrictSorted v) (x : α) :
    ((lookup v x).Throws ↔ x ∉ v) ∧
    (∀ i : Nat, lookup v x = .ok (Ident.Ident.mk' i) ↔ at_ v i = .ok x) ∧
    (x ∈ v → ∃ i : Nat, lookup v x = .ok (Ident.Ident.mk' i) ∧ (Ident.Ident.mk' i).conv = .ok i ∧
      at_ v i = .ok x) := by
  have hnf := (c03_not_found_iff v hs x).1
  have hat : ∀ i, at_ v i = .ok x ↔ v[i]? = some x := by
    intro i; unfold at_; split
    · next y hy => simp [hy]
    · next hy => simp [hy]
  have h2 : ∀ i : Nat, lookup v x = .ok (Ident.Ident.mk' i) ↔ at_ v i = .ok x := by
    intro i
    rw [hat, ← c03_found_iff v hs x i]
    unfold lookup
    simp only
    constructor
    · intro h
      split at h
      · cases h
      · next hb =>
        have hb' : (findElementId v x).1 = true := by simpa using hb
        have : (findElementId v x).2 = Ident.Ident.mk' i := by simpa using h
        rw [← this, ← hb']
    · intro h; rw [h]; simp
  refine ⟨?_, h2, ?_⟩
  · rw [← hnf]
    unfold lookup
    simp only
    cases h : (findElementId v x).1 <;> simp
  · intro hx
    obtain ⟨i, hi⟩ := List.mem_iff_getElem?.1 hx
    exact ⟨i, (h2 i).2 ((hat i).2 hi), by simp [Ident.Ident.mk', Ident.Ident.conv], (hat i).2 hi⟩

example : StrictSorted [1, 4, 9] := by
  rw [strictSorted_iff_pairwise]; decide
example : lookup [1, 4, 9] 4 = .ok (Ident.Ident.mk' 1) ∧ (lookup [1, 4, 9] 5).Throws := by
  decide +kernel

/-- C04 (stored elements): `offset` is the position of a stored element, and agrees with `lookup`. -/
theorem c04_offset_stored_partial (v : List α) (hs : StrictSorted v) (i : Nat) (h : i < v.length) :
    offset v v[i] = .ok i ∧ lookup v v[i] = .ok (Ident.Ident.mk' i) := by
  constructor
  · unfold offset
    simp only [lowerBound_getElem v hs i h]
    rw [if_neg (by omega)]
  · exact ((c03_lookup v hs v[i]).2.1 i).2 (by simp [at_, h])

example : offset [1, 4, 9] 9 = .ok 2 := by decide +kernel

/-- C04 (absent elements, what the code does): for an absent element `offset` throws exactly when
the element is larger than everything stored, and otherwise returns the position of the first
stored element above it. -/
theorem c04_offset_absent (v : List α) (hs : StrictSorted v) (x : α) (hx : x ∉ v) :
    ((offset v x).Throws ↔ ∀ y ∈ v, y < x) ∧
    (∀ i, offset v x = .ok i → ∃ h : i < v.length, x < v[i] ∧ ∀ j (hj : j < v.length), j < i → v[j] < x) := by
  have hp := (strictSorted_iff_pairwise v).1 hs
  obtain ⟨h1, h2, h3⟩ := lowerBound_spec v x (hp.imp le_of_lt)
  constructor
  · unfold offset
    simp only
    constructor
    · intro h y hy
      split at h
      · next heq =>
        obtain ⟨j, hj, rfl⟩ := List.mem_iff_getElem.1 hy
        exact h2 j hj (by omega)
      · exact absurd h (by simp)
    · intro h
      split
      · simp
      · next hne =>
        exfalso
        have hl : lowerBound v x < v.length := by omega
        exact absurd (h _ (List.getElem_mem hl)) (not_lt.2 (h3 _ hl le_rfl))
  · intro i hi
    unfold offset at hi
    simp only at hi
    split at hi
    · cases hi
    · have : lowerBound v x = i := by simpa using hi
      subst this
      have hl : lowerBound v x < v.length := by omega
      refine ⟨hl, lt_of_le_of_ne (h3 _ hl le_rfl) ?_, h2⟩
      intro heq
      exact hx (heq ▸ List.getElem_mem hl)

/-- C04 (violation): the absent element 5 gets the offset of the stored element 9. -/
theorem c04_offset_violation :
    ¬ ∀ (v : List Nat) (x : Nat), StrictSorted v → x ∉ v → (offset v x).Throws := by
  intro h
  have := h [1, 4, 9] 5 (by rw [strictSorted_iff_pairwise]; decide) (by decide)
  revert this; decide +kernel

/-- C05 (any sort): whatever sorted arrangement of the input `std::sort` produces, removing adjacent
repetitions gives the same, strictly increasing list with the same elements. -/
theorem c05_any_sort (v s : List α) (hperm : s.Perm v) (hs : s.Pairwise (· ≤ ·)) :
    unique s = sortUniq v ∧ StrictSorted (unique s) ∧ SameElements (unique s) v := by
  have hsorted := unique_sorted s hs
  have hmem : SameElements (unique s) v := by
    intro x; rw [mem_unique, hperm.mem_iff]
  refine ⟨?_, (strictSorted_iff_pairwise _).2 hsorted, hmem⟩
  apply strict_ext _ _ hsorted (unique_sorted _ (mergeSort_sorted v))
  intro x
  rw [hmem x]
  rw [mem_unique, List.mem_mergeSort]

/-- C05: `sort_uniq` yields a strictly increasing list with the same elements, is idempotent, and
depends only on the set of elements. -/
theorem c05_sort_uniq (v : List α) :
    StrictSorted (sortUniq v) ∧ SameElements (sortUniq v) v ∧ sortUniq (sortUniq v) = sortUniq v ∧
    ∀ w, SameElements v w → sortUniq v = sortUniq w := by
  have hs : ∀ v : List α, (sortUniq v).Pairwise (· < ·) := fun v => unique_sorted _ (mergeSort_sorted v)
  have hm : ∀ (v : List α) x, x ∈ sortUniq v ↔ x ∈ v := by
    intro v x; rw [sortUniq, mem_unique, List.mem_mergeSort]
  refine ⟨(strictSorted_iff_pairwise _).2 (hs v), hm v, ?_, ?_⟩
  · exact strict_ext _ _ (hs _) (hs _) (fun x => hm _ x)
  · intro w hw
    exact strict_ext _ _ (hs _) (hs _) (fun x => by rw [hm, hm]; exact hw x)

example : sortUniq [3, 1, 3, 2, 1] = [1, 2, 3] := by
  apply strict_ext _ _ ((strictSorted_iff_pairwise _).1 (c05_sort_uniq _).1) (by decide)
  intro x; rw [(c05_sort_uniq [3, 1, 3, 2, 1]).2.1 x]; simp only [List.mem_cons, List.not_mem_nil]; tauto

/-- C05 + C03: after `sort_uniq`, every element of the original list can be looked up, and nothing else. -/
theorem c05_lookup_after (v : List α) (x : α) :
    (∃ i : Nat, lookup (sortUniq v) x = .ok (Ident.Ident.mk' i)) ↔ x ∈ v := by
  obtain ⟨hs, hm, _, _⟩ := c05_sort_uniq v
  rw [← hm x]
  constructor
  · rintro ⟨i, hi⟩
    by_contra hc
    have := ((c03_lookup _ hs x).1).2 hc
    rw [hi] at this; exact this
  · intro hx
    obtain ⟨i, hi, _⟩ := (c03_lookup _ hs x).2.2 hx
    exact ⟨i, hi⟩

end Verif.Lookup
