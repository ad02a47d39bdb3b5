import Verif.Model.Util
import Mathlib.Algebra.Group.Basic
import Mathlib.Data.Nat.Choose.Basic
import Mathlib.Data.Nat.Factorial.Basic
import Mathlib.Tactic.Ring
import Mathlib.Tactic.Linarith
/-! Lemmas for the arithmetic helpers. -/
namespace Verif.Util

theorem basisLoop_snd (k d : Nat) : (basisLoop k d).2 = d.factorial := by
  induction d with
  | zero => rfl
  | succ d ih => simp [basisLoop, ih, Nat.factorial_succ, Nat.mul_comm]

theorem basisLoop_fst (k d : Nat) : (basisLoop k d).1 * k.factorial = (k + d).factorial := by
  induction d with
  | zero => simp [basisLoop]
  | succ d ih =>
    simp only [basisLoop]
    rw [← Nat.add_assoc, Nat.factorial_succ, ← ih]
    ring

theorem basisLoop_div (k d : Nat) :
    (basisLoop k d).2 ∣ (basisLoop k d).1 ∧ (basisLoop k d).1 / (basisLoop k d).2 = (k + d).choose d := by
  have h1 := basisLoop_fst k d
  have h2 : (k + d).choose d * d.factorial * k.factorial = (k + d).factorial := by
    have := Nat.choose_mul_factorial_mul_factorial (Nat.le_add_left d k)
    simpa using this
  have hpos : 0 < k.factorial := Nat.factorial_pos k
  have h3 : (basisLoop k d).1 = (k + d).choose d * d.factorial :=
    Nat.eq_of_mul_eq_mul_right hpos (h1.trans h2.symm)
  rw [basisLoop_snd, h3]
  exact ⟨Nat.dvd_mul_left _ _, Nat.mul_div_cancel _ (Nat.factorial_pos d)⟩

end Verif.Util
