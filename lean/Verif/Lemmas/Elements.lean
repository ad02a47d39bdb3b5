import Verif.Model.Elements
/-! Lemmas for Elements.lean. -/
namespace Verif.Props.Elements
open Verif.Elements

/-- `operator<` is the lexicographic order. -/
theorem lt_total (a b : List Nat) : (lt a b = false ∧ lt b a = false) ↔ a = b := by
  induction a generalizing b with
  | nil => cases b <;> simp [lt]
  | cons x xs ih =>
    cases b with
    | nil => simp [lt]
    | cons y ys =>
      simp only [lt, List.cons.injEq]
      rcases Nat.lt_trichotomy x y with h | h | h
      · have : ¬ y < x := by omega
        simp [h]; omega
      · subst h; simp [ih]
      · have : ¬ x < y := by omega
        simp [h]; omega

end Verif.Props.Elements
