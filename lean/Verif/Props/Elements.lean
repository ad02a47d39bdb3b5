import Verif.Lemmas.Elements
import Verif.Model.Elements
/-!
Property C52.
-/
namespace Verif.Props.Elements
open Verif.Elements

/-- C52. `operator<` is a strict total order. -/
theorem c52_lt_strict_total (a b c : List Nat) :
    lt a a = false ∧ (lt a b = true → lt b a = false) ∧ (lt a b = true → lt b c = true → lt a c = true) ∧
    ((lt a b = false ∧ lt b a = false) ↔ a = b) := by
  refine ⟨((lt_total a a).2 rfl).1, ?_, ?_, lt_total a b⟩
  · induction a generalizing b with
    | nil => cases b <;> simp [lt]
    | cons x xs ih =>
      cases b with
      | nil => simp [lt]
      | cons y ys =>
        simp only [lt]
        rcases Nat.lt_trichotomy x y with h | h | h
        · have : ¬ y < x := by omega
          simp [h, this]
        · subst h; simpa using ih ys
        · have : ¬ x < y := by omega
          simp [h, this]
  · induction a generalizing b c with
    | nil =>
      cases b with
      | nil => simp [lt]
      | cons y ys => cases c <;> simp [lt]
    | cons x xs ih =>
      cases b with
      | nil => simp [lt]
      | cons y ys =>
        cases c with
        | nil => simp [lt]
        | cons z zs =>
          simp only [lt]
          intro h1 h2
          by_cases hxy : x < y
          · by_cases hyz : y < z
            · have : x < z := by omega
              simp [this]
            · have hzy : ¬ z < y := by intro h; simp [hyz, h] at h2
              have : x < z := by omega
              simp [this]
          · have hyx : ¬ y < x := by intro h; simp [hxy, h] at h1
            simp only [hxy, hyx, if_false] at h1
            have hxy' : x = y := by omega
            subst hxy'
            by_cases hyz : x < z
            · simp [hyz]
            · have hzy : ¬ z < x := by intro h; simp [hyz, h] at h2
              simp only [hyz, hzy, if_false] at h2 ⊢
              exact ih ys zs h1 h2

/-- C52 for elements with the same number of sub-elements: equality is well defined, symmetric and agrees
with the order. -/
theorem c52_eq_partial (a b : List Nat) (h : a.length = b.length) :
    eq a b = .ok (decide (a = b)) ∧ eq b a = eq a b ∧
      (eq a b = .ok true ↔ lt a b = false ∧ lt b a = false) := by
  have key : ∀ a b : List Nat, a.length = b.length → eq a b = .ok (decide (a = b)) := by
    intro a
    induction a with
    | nil =>
      intro b hb
      have : b = [] := List.length_eq_zero_iff.1 (by simpa using hb.symm)
      subst this; rfl
    | cons x xs ih =>
      intro b hb
      cases b with
      | nil => simp at hb
      | cons y ys =>
        simp only [List.length_cons, Nat.add_right_cancel_iff] at hb
        by_cases hxy : x = y
        · simp [eq, hxy, ih ys hb]
        · simp [eq, hxy]
  refine ⟨key a b h, ?_, ?_⟩
  · rw [key a b h, key b a h.symm]
    simp [eq_comm]
  · rw [key a b h, lt_total]; simp

example : eq [1, 2, 5] [1, 2, 5] = .ok true ∧ eq [1, 2, 5] [1, 2, 6] = .ok false := by decide

/-- C52. What equality computes in general: it holds when the first element is a prefix of the second,
and it reads out of range exactly when the second is a proper prefix of the first. -/
theorem c52_eq_general (a b : List Nat) :
    (eq a b = .ok true ↔ a <+: b) ∧ ((eq a b).IsUB ↔ b <+: a ∧ a ≠ b) := by
  induction a generalizing b with
  | nil =>
    simp only [eq, List.nil_prefix, Outcome.not_isUB_ok, false_iff, true_and]
    rintro ⟨h, hne⟩
    exact hne (List.prefix_nil.1 h).symm
  | cons x xs ih =>
    cases b with
    | nil => simp [eq]
    | cons y ys =>
      obtain ⟨h1, h2⟩ := ih ys
      by_cases hxy : x = y
      · subst hxy
        simp only [eq, if_true, List.prefix_cons_inj, h1, h2, ne_eq, List.cons.injEq, true_and, and_self]
      · have hyx : ¬ y = x := fun h => hxy h.symm
        simp [eq, hxy, List.cons_prefix_cons, hyx]

/-- C52 fails for elements of different sizes: equal in one order, out of range in the other, although
`operator<` distinguishes them. -/
theorem c52_violation :
    eq [1, 2, 3] [1, 2, 3, 4] = .ok true ∧ (eq [1, 2, 3, 4] [1, 2, 3]).IsUB ∧
    lt [1, 2, 3] [1, 2, 3, 4] = true := by decide

/-- Polytopes with limited storage that use all their slots compare as their points do. -/
theorem c52_limited_partial (n : Nat) (a b g g' : List Nat) (ha : a.length = n) (hb : b.length = n) (hn : 3 ≤ n) :
    ∃ p q, Limited.make n a g = .ok p ∧ Limited.make n b g' = .ok q ∧ p.points = a ∧ q.points = b ∧
      p.eq q = decide (a = b) ∧ p.lt q = lt a b := by
  refine ⟨⟨a, n⟩, ⟨b, n⟩, ?_, ?_, ?_, ?_, ?_, rfl⟩
  · simp [Limited.make, ha, hn]
  · simp [Limited.make, hb, hn]
  · simp [Limited.points, ← ha]
  · simp [Limited.points, ← hb]
  · simp only [Limited.eq]
    by_cases h : a = b <;> simp [h]

example : ([4, 5, 6] : List Nat).length = 3 ∧ 3 ≤ 3 := by decide

/-- C52 fails for polytopes with limited storage that do not use all their slots: the same three points
compare different, and ordered, depending on the uninitialised slot. -/
theorem c52_limited_violation :
    ∃ p q, Limited.make 4 [1, 2, 3] [7] = .ok p ∧ Limited.make 4 [1, 2, 3] [9] = .ok q ∧
      p.points = q.points ∧ p.eq q = false ∧ p.lt q = true := by
  exact ⟨⟨[1, 2, 3, 7], 3⟩, ⟨[1, 2, 3, 9], 3⟩, by decide, by decide, by decide, by decide, by decide⟩

end Verif.Props.Elements
