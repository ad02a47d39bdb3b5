import Verif.Model.SparseRaw
/-! Lemmas for SparseRaw.lean. -/
namespace Verif.Props.SparseRaw
open Verif.SparseRaw

theorem addTo_ok (d : Int) (n : Nat) (v : List Int) (h : n ≤ v.length) :
    addTo d n v = .ok ((v.take n).map (· + d) ++ v.drop n) := by
  induction n generalizing v with
  | zero => simp [addTo]
  | succ n ih =>
    cases v with
    | nil => simp at h
    | cons x xs =>
      simp only [List.length_cons, Nat.add_le_add_iff_right] at h
      simp [addTo, ih xs h]

theorem addTo_inv (n : Nat) (v : List Int) (h : n ≤ v.length) :
    addTo (-1) n ((v.take n).map (· + 1) ++ v.drop n) = .ok v := by
  rw [addTo_ok _ _ _ (by simp; omega)]
  have h1 : (List.take n ((v.take n).map (· + 1) ++ v.drop n)) = (v.take n).map (· + 1) := by
    rw [List.take_append_of_le_length (by simp; omega)]
    rw [List.take_of_length_le (by simp; omega)]
  have h2 : (List.drop n ((v.take n).map (· + 1) ++ v.drop n)) = v.drop n := by
    rw [List.drop_append_of_le_length (by simp; omega)]
    rw [List.drop_eq_nil_of_le (by simp; omega)]
    simp
  rw [h1, h2, List.map_map]
  have : ((fun x : Int => x + -1) ∘ fun x => x + 1) = id := by funext x; simp only [Function.comp, id]; omega
  rw [this]
  simp

theorem addTo_ub (d : Int) (n : Nat) (v : List Int) (h : v.length < n) : (addTo d n v).IsUB := by
  induction n generalizing v with
  | zero => simp at h
  | succ n ih =>
    cases v with
    | nil => simp [addTo]
    | cons x xs =>
      have := ih xs (by simpa using h)
      cases hx : addTo d n xs with
      | ok _ => rw [hx] at this; exact this.elim
      | throws _ => rw [hx] at this; exact this.elim
      | ub _ => simp [addTo, hx]

theorem restoreN_done (k : Nat) (A : Sparse) (v : View) (h : (!v.oneBased || v.restored) = true) :
    restoreN k A v = .ok (A, v) := by
  induction k with
  | zero => rfl
  | succ k ih => simp only [restoreN, restore, h, if_true, Outcome.bind_ok, ih]

end Verif.Props.SparseRaw
