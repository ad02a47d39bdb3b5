import Verif.Spec.Bingham
import Mathlib.Tactic.Ring
import Mathlib.Tactic.Linarith
import Mathlib.Tactic.FieldSimp
import Mathlib.Tactic.Positivity
import Mathlib.Algebra.BigOperators.Ring.Finset
import Mathlib.Algebra.Order.BigOperators.Ring.Finset
/-!
Scalar products, the shrinking of a tensor and Bingham's law.
-/
noncomputable section
namespace Verif.Bingham
open Finset Spec.Bingham

variable {s : Nat} {a b g th : Nat → ℝ} {mu alpha c e : ℝ}

theorem ip_self_nonneg (s : Nat) (a : Nat → ℝ) : 0 ≤ ip s a a := sum_nonneg fun _ _ => mul_self_nonneg _

theorem nrm_nonneg (s : Nat) (a : Nat → ℝ) : 0 ≤ nrm s a := Real.sqrt_nonneg _

theorem nrm_sq (s : Nat) (a : Nat → ℝ) : nrm s a * nrm s a = ip s a a := Real.mul_self_sqrt (ip_self_nonneg s a)

theorem ip_congr {a' b' : Nat → ℝ} (h : ∀ i < s, a i = a' i) (h' : ∀ i < s, b i = b' i) : ip s a b = ip s a' b' :=
  sum_congr rfl fun i hi => by rw [h i (mem_range.1 hi), h' i (mem_range.1 hi)]

theorem nrm_congr {a' : Nat → ℝ} (h : ∀ i < s, a i = a' i) : nrm s a = nrm s a' := by
  rw [nrm, nrm, ip_congr h h]

theorem ip_comm (s : Nat) (a b : Nat → ℝ) : ip s a b = ip s b a := sum_congr rfl fun _ _ => mul_comm _ _

theorem ip_add (s : Nat) (a b g : Nat → ℝ) : ip s (fun i => a i + b i) g = ip s a g + ip s b g := by
  simp only [ip, add_mul, sum_add_distrib]

theorem ip_sub (s : Nat) (a b g : Nat → ℝ) : ip s (fun i => a i - b i) g = ip s a g - ip s b g := by
  simp only [ip, sub_mul, sum_sub_distrib]

theorem ip_smul (s : Nat) (k : ℝ) (a g : Nat → ℝ) : ip s (fun i => k * a i) g = k * ip s a g := by
  simp only [ip, mul_sum, mul_assoc]

theorem ip_sub_right (s : Nat) (a b g : Nat → ℝ) : ip s g (fun i => a i - b i) = ip s g a - ip s g b := by
  rw [ip_comm, ip_sub, ip_comm s a, ip_comm s b]

theorem ip_smul_right (s : Nat) (k : ℝ) (a g : Nat → ℝ) : ip s g (fun i => k * a i) = k * ip s g a := by
  rw [ip_comm, ip_smul, ip_comm]

theorem nrm_smul (s : Nat) {k : ℝ} (hk : 0 ≤ k) (a : Nat → ℝ) : nrm s (fun i => k * a i) = k * nrm s a := by
  rw [nrm, ip_smul, ip_smul_right, ← mul_assoc, Real.sqrt_mul (mul_self_nonneg k), Real.sqrt_mul_self hk, nrm]

theorem nrm_zero : nrm s (fun _ => 0) = 0 := by simp [nrm, ip]

theorem nrm_eq_zero : nrm s a = 0 ↔ ∀ i < s, a i = 0 := by
  rw [nrm, Real.sqrt_eq_zero (ip_self_nonneg s a), ip, sum_eq_zero_iff_of_nonneg fun i _ => mul_self_nonneg _]
  simp

/-- Cauchy and Schwarz. -/
theorem ip_le (s : Nat) (a b : Nat → ℝ) : ip s a b ≤ nrm s a * nrm s b := by
  have h := sum_mul_sq_le_sq_mul_sq (range s) a b
  have ha : ∑ i ∈ range s, a i ^ 2 = ip s a a := sum_congr rfl fun _ _ => by ring
  have hb : ∑ i ∈ range s, b i ^ 2 = ip s b b := sum_congr rfl fun _ _ => by ring
  rw [ha, hb, ← nrm_sq, ← nrm_sq] at h
  refine le_of_sq_le_sq ?_ (mul_nonneg (nrm_nonneg s a) (nrm_nonneg s b))
  calc ip s a b ^ 2 ≤ _ := h
    _ = _ := by ring

/-- The shrunken tensor. -/
def shrink (mu alpha c t : ℝ) (th : Nat → ℝ) : Nat → ℝ := fun i => 1 / (2 * (mu + alpha)) * th i * (1 - c / t)

/-- A plastic stress: of norm at most `b`, along `g` and of norm `c` where `g` does not vanish. -/
def Plastic (c b : ℝ) (s : Nat) (B g : Nat → ℝ) : Prop := nrm s B ≤ b ∧ ip s B g = c * nrm s g

theorem shrink_plastic (h : 0 < mu + alpha) (hc : 0 ≤ c) (ht : c < nrm s th) :
    Plastic c c s (fun i => th i - 2 * alpha * shrink mu alpha c (nrm s th) th i - 2 * mu * shrink mu alpha c (nrm s th) th i)
      (shrink mu alpha c (nrm s th) th) ∧
    nrm s (shrink mu alpha c (nrm s th) th) = (nrm s th - c) / (2 * (mu + alpha)) := by
  have ht0 : 0 < nrm s th := lt_of_le_of_lt hc ht
  have e1 : (fun i => th i - 2 * alpha * shrink mu alpha c (nrm s th) th i - 2 * mu * shrink mu alpha c (nrm s th) th i) =
      fun i => c / nrm s th * th i := by
    funext i
    rw [shrink]
    field_simp
    ring
  have e2 : shrink mu alpha c (nrm s th) th = fun i => (nrm s th - c) / (2 * (mu + alpha) * nrm s th) * th i := by
    funext i
    rw [shrink]
    field_simp
  have hk : 0 ≤ (nrm s th - c) / (2 * (mu + alpha) * nrm s th) :=
    div_nonneg (by linarith) (by positivity)
  rw [e1, e2, Plastic, nrm_smul s (by positivity), nrm_smul s hk, ip_smul, ip_smul_right, ← nrm_sq]
  refine ⟨⟨le_of_eq (by field_simp), ?_⟩, ?_⟩
  · field_simp
  · field_simp

/-- The law in terms of a plastic stress. -/
theorem law_plastic {sig : Nat → ℝ} (hc : 0 ≤ c) (h : Law mu c c s sig g) :
    Plastic c c s (fun i => sig i - 2 * mu * g i) g := by
  by_cases hg : ∀ i < s, g i = 0
  · have e : ∀ i < s, sig i - 2 * mu * g i = sig i := fun i hi => by rw [hg i hi]; ring
    refine ⟨by rw [nrm_congr e]; exact h.1 hg, ?_⟩
    rw [nrm_eq_zero.2 hg, mul_zero]
    exact sum_eq_zero fun i hi => by rw [hg i (mem_range.1 hi), mul_zero]
  · have hn : 0 < nrm s g := lt_of_le_of_ne (nrm_nonneg s g) fun h => hg (nrm_eq_zero.1 h.symm)
    have e : ∀ i < s, sig i - 2 * mu * g i = c / nrm s g * g i := fun i hi => by rw [h.2 hg i hi]; ring
    rw [Plastic, nrm_congr e, ip_congr e fun _ _ => rfl, nrm_smul s (by positivity), ip_smul, ← nrm_sq]
    exact ⟨le_of_eq (by field_simp), by field_simp⟩

/-- Plastic stresses are monotone, up to the excess of the first over its bound. -/
theorem plastic_mono {B B' g' : Nat → ℝ} {b : ℝ} (h : Plastic c b s B g) (h' : Plastic c c s B' g') :
    -((b - c) * nrm s g') ≤ ip s (fun i => B i - B' i) (fun i => g i - g' i) := by
  have h1 := ip_le s B g'
  have h2 := ip_le s B' g
  have h3 := mul_le_mul_of_nonneg_right h.1 (nrm_nonneg s g')
  have h4 := mul_le_mul_of_nonneg_right h'.1 (nrm_nonneg s g)
  rw [ip_sub, ip_sub_right, ip_sub_right, h.2, h'.2]
  linarith

/-- The energy of a cell grows quadratically from a point with a plastic stress. -/
theorem energy_grows {B : Nat → ℝ} (hB : ∀ i < s, th i = 2 * (mu + alpha) * g i + B i)
    (hp : Plastic c c s B g) (d : Nat → ℝ) :
    energy mu alpha c s th g + (mu + alpha) * ip s (fun i => d i - g i) (fun i => d i - g i) ≤ energy mu alpha c s th d := by
  have h1 := ip_le s B d
  have h3 := mul_le_mul_of_nonneg_right hp.1 (nrm_nonneg s d)
  have e : ∀ x : Nat → ℝ, ip s th x = 2 * (mu + alpha) * ip s g x + ip s B x := fun x => by
    rw [ip_congr hB fun _ _ => rfl, ip_add, ip_smul]
  rw [energy, energy, e, e, ip_sub, ip_sub_right, ip_sub_right, hp.2, ip_comm s d g]
  nlinarith

end Verif.Bingham
