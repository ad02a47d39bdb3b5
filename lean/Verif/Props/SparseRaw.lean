import Verif.Lemmas.SparseRaw
import Verif.Model.SparseRaw
/-!
Property C49.
-/
namespace Verif.Props.SparseRaw
open Verif.SparseRaw

/-- C49 for matrices with at most as many rows as outer vectors (in particular square ones): after
construction, any number of `restore` calls and destruction, the matrix is unchanged. -/
theorem c49_round_trip_partial (A : Sparse) (oneBased : Bool) (k : Nat) (h : A.rows + 1 ≤ A.outer.length) :
    ∃ A1 v A2 v2, construct A oneBased = .ok (A1, v) ∧ restoreN k A1 v = .ok (A2, v2) ∧
      destroy A2 v2 = .ok A ∧ (0 < k → A2 = A) ∧ (k = 0 → A2 = A1) := by
  cases oneBased with
  | false =>
    refine ⟨A, ⟨false, false, A.rows, A.inner.length⟩, A, ⟨false, false, A.rows, A.inner.length⟩, rfl, ?_, rfl, fun _ => rfl, fun _ => rfl⟩
    exact restoreN_done k _ _ rfl
  | true =>
    have hc : construct A true = .ok (⟨A.rows, (A.outer.take (A.rows + 1)).map (· + 1) ++ A.outer.drop (A.rows + 1),
        (A.inner.take A.inner.length).map (· + 1) ++ A.inner.drop A.inner.length⟩, ⟨true, false, A.rows, A.inner.length⟩) := by
      simp only [construct, if_true, addTo_ok _ _ _ h, addTo_ok _ _ _ (Nat.le_refl A.inner.length), Outcome.bind_ok]
    have hr : restore (⟨A.rows, (A.outer.take (A.rows + 1)).map (· + 1) ++ A.outer.drop (A.rows + 1),
        (A.inner.take A.inner.length).map (· + 1) ++ A.inner.drop A.inner.length⟩ : Sparse) ⟨true, false, A.rows, A.inner.length⟩ =
        .ok (A, ⟨true, true, A.rows, A.inner.length⟩) := by
      simp only [restore, Bool.not_true, Bool.or_false, Bool.false_eq_true, if_false,
        addTo_inv _ _ h, addTo_inv _ _ (Nat.le_refl A.inner.length), Outcome.bind_ok]
    cases k with
    | zero =>
      refine ⟨_, _, _, _, hc, rfl, ?_, by simp, fun _ => rfl⟩
      simp only [destroy, Bool.not_false, Bool.and_self, if_true, hr, Outcome.bind_ok]
    | succ k =>
      refine ⟨_, _, A, ⟨true, true, A.rows, A.inner.length⟩, hc, ?_, ?_, fun _ => rfl, by simp⟩
      · simp only [restoreN, hr, Outcome.bind_ok]
        exact restoreN_done k _ _ rfl
      · simp [destroy]

/-- C49. While the one-based view is alive, every index is one higher. -/
theorem c49_one_based (A : Sparse) (h : A.outer.length = A.rows + 1) :
    ∃ A1 v, construct A true = .ok (A1, v) ∧ A1.outer = A.outer.map (· + 1) ∧ A1.inner = A.inner.map (· + 1) := by
  refine ⟨⟨A.rows, A.outer.map (· + 1), A.inner.map (· + 1)⟩, ⟨true, false, A.rows, A.inner.length⟩, ?_, rfl, rfl⟩
  simp only [construct, if_true, addTo_ok 1 (A.rows + 1) A.outer (by omega), addTo_ok _ _ _ (Nat.le_refl A.inner.length),
    Outcome.bind_ok]
  simp [← h]

example : (construct ⟨2, [0, 1, 2], [0, 1]⟩ true) = .ok (⟨2, [1, 2, 3], [1, 2]⟩, ⟨true, false, 2, 2⟩) ∧
    ([0, 1, 2] : List Int).length = 2 + 1 := by decide

/-- C49 fails for a column-major matrix with more rows than columns: the constructor writes past the end of
the outer index array. -/
theorem c49_tall_violation (A : Sparse) (h : A.outer.length < A.rows + 1) : (construct A true).IsUB := by
  have := addTo_ub 1 (A.rows + 1) A.outer h
  cases hx : addTo 1 (A.rows + 1) A.outer with
  | ok _ => rw [hx] at this; exact this.elim
  | throws _ => rw [hx] at this; exact this.elim
  | ub _ => simp [construct, hx]

example : (construct ⟨2, [0, 1], [0]⟩ true).IsUB := by decide

/-- C49 fails when a one-based view is copied: destroying both copies shifts the indices twice. -/
theorem c49_copy_violation :
    ∃ A1 v A2, construct ⟨1, [0, 1], [0]⟩ true = .ok (A1, v) ∧ destroy A1 v = .ok A2 ∧
      destroy A2 v = .ok ⟨1, [-1, 0], [-1]⟩ := by
  exact ⟨⟨1, [1, 2], [1]⟩, ⟨true, false, 1, 1⟩, ⟨1, [0, 1], [0]⟩, by decide, by decide, by decide⟩

end Verif.Props.SparseRaw
