import Verif.Lemmas.GaussTables
import Verif.Model.Gauss
import Verif.Spec.Quadrature
import Mathlib.Analysis.SpecialFunctions.Integrals.Basic
import Mathlib.Algebra.Polynomial.Degree.Lemmas
/-!
Moments of stored tables, and from moments to polynomials.
-/
namespace Verif.Quad
open Verif.Spec Polynomial

/-- `∫ t in -1..1, t ^ k`. -/
noncomputable def mom (k : ℕ) : ℝ := if k % 2 = 0 then 2 / ((k : ℝ) + 1) else 0

theorem integral_mom (k : ℕ) : ∫ t in (-1 : ℝ)..1, t ^ k = mom k := by
  rw [integral_pow, mom]
  by_cases h : k % 2 = 0
  · have ho : Odd (k + 1) := by rw [Nat.odd_iff]; omega
    rw [if_pos h, ho.neg_one_pow]; norm_num
  · have he : Even (k + 1) := by rw [Nat.even_iff]; omega
    rw [if_neg h, he.neg_one_pow]; norm_num

theorem mom_abs_le (k : ℕ) : |mom k| ≤ 2 := by
  unfold mom
  split_ifs
  · rw [abs_of_nonneg (by positivity)]
    exact div_le_self (by norm_num) (by have := Nat.cast_nonneg (α := ℝ) k; linarith)
  · norm_num

theorem quadSum_cons {X : Type} (q : X × ℝ) (l : List (X × ℝ)) (f : X → ℝ) :
    quadSum (q :: l) f = q.2 * f q.1 + quadSum l f := by simp [quadSum]

theorem quadSum_nil {X : Type} (f : X → ℝ) : quadSum [] f = 0 := by simp [quadSum]

theorem quadSum_append {X : Type} (l l' : List (X × ℝ)) (f : X → ℝ) :
    quadSum (l ++ l') f = quadSum l f + quadSum l' f := by simp [quadSum]

theorem literal_moment (t : List (Int × Int)) (k : ℕ) :
    quadSum (literal t) (fun x => x ^ k) =
      (((t.map fun e => e.2 * e.1 ^ k).sum : Int) : ℝ) / 10 ^ (16 * (k + 1)) := by
  induction t with
  | nil => simp [literal, quadSum]
  | cons e t ih =>
    have : literal (e :: t) = (dec16 e.1, dec16 e.2) :: literal t := rfl
    rw [this, quadSum_cons, ih, List.map_cons, List.sum_cons]
    push_cast
    simp only [dec16]
    have h : (10 : ℝ) ^ (16 * (k + 1)) = 10 ^ 16 * (10 ^ 16) ^ k := by rw [pow_mul]; ring
    rw [h, div_pow, add_div, mul_div_mul_comm]

theorem closeTo_abs {s : Int} {k d : ℕ} (h : closeTo s k d = true) (hd : 0 < d) :
    |(s : ℝ) / (d : ℝ) - mom k| ≤ 1 / 200000000000000 := by
  have h' := of_decide_eq_true h
  have hk : (0 : ℝ) < (k : ℝ) + 1 := by positivity
  have hD : (0 : ℝ) < d := by exact_mod_cast hd
  have hr : |(s : ℝ) * ((k : ℝ) + 1) - (if k % 2 = 0 then 2 * (d : ℝ) else 0)| * 200000000000000
      ≤ ((k : ℝ) + 1) * d := by
    have h2 := (Nat.cast_le (α := ℝ)).mpr h'
    push_cast [Nat.cast_natAbs] at h2
    exact h2
  have e : (s : ℝ) / d - mom k =
      ((s : ℝ) * ((k : ℝ) + 1) - (if k % 2 = 0 then 2 * (d : ℝ) else 0)) / (((k : ℝ) + 1) * d) := by
    unfold mom
    split_ifs <;> field_simp <;> ring
  rw [e, abs_div, abs_of_pos (mul_pos hk hD), div_le_div_iff₀ (mul_pos hk hD) (by norm_num), one_mul]
  exact hr

theorem moment_of_ok {t : List (Int × Int)} {k : ℕ} (h : momentOK t k = true) :
    |quadSum (literal t) (fun x => x ^ k) - mom k| ≤ 1 / 200000000000000 := by
  rw [literal_moment]
  unfold momentOK at h
  have hp : 0 < 10 ^ (16 * (k + 1)) := Nat.pow_pos (by norm_num)
  have e : (10 : ℝ) ^ (16 * (k + 1)) = ((10 ^ (16 * (k + 1)) : ℕ) : ℝ) := by rw [Nat.cast_pow]; norm_num
  rw [e]
  exact closeTo_abs h hp

theorem abs_pow_le_one {x : ℝ} (h : |x| ≤ 1) (k : ℕ) : |x ^ k| ≤ 1 := by
  rw [abs_pow]; exact pow_le_one₀ (abs_nonneg _) h

theorem pow_sub_le {x y δ : ℝ} (hx : |x| ≤ 1) (hy : |y| ≤ 1) (h : |y - x| ≤ δ) (k : ℕ) :
    |y ^ k - x ^ k| ≤ k * δ := by
  induction k with
  | zero => simp
  | succ k ih =>
    have e : y ^ (k + 1) - x ^ (k + 1) = y * (y ^ k - x ^ k) + (y - x) * x ^ k := by ring
    rw [e]
    refine (abs_add_le _ _).trans ?_
    rw [abs_mul, abs_mul]
    have h1 : |y| * |y ^ k - x ^ k| ≤ 1 * (k * δ) :=
      mul_le_mul hy ih (abs_nonneg _) (by norm_num)
    have h2 : |y - x| * |x ^ k| ≤ δ * 1 :=
      mul_le_mul h (abs_pow_le_one hx k) (abs_nonneg _) ((abs_nonneg _).trans h)
    push_cast; linarith

theorem halfUlp_pos : 0 < halfUlp := by unfold halfUlp; positivity

/-- Effect of storing on a moment. -/
theorem stored_moment {s t : List (ℝ × ℝ)} (h : Stored s t) (hn : ∀ e ∈ s, |e.1| ≤ 1 ∧ 0 ≤ e.2) (k : ℕ) :
    |quadSum t (fun x => x ^ k) - quadSum s (fun x => x ^ k)| ≤
      (s.length + k * quadSum s (fun x => x ^ 0)) * halfUlp := by
  unfold Stored at h
  induction h with
  | nil => simp [quadSum]
  | @cons x y s t hxy _ ih =>
    obtain ⟨h1, h2, h3⟩ := hxy
    have hx := hn x (by simp)
    have ih' := ih (fun e he => hn e (by simp [he]))
    rw [quadSum_cons, quadSum_cons, quadSum_cons]
    have e : y.2 * y.1 ^ k + quadSum t (fun x => x ^ k) - (x.2 * x.1 ^ k + quadSum s (fun x => x ^ k)) =
        (y.2 - x.2) * y.1 ^ k + x.2 * (y.1 ^ k - x.1 ^ k) +
        (quadSum t (fun x => x ^ k) - quadSum s (fun x => x ^ k)) := by ring
    rw [e]
    refine (abs_add_le _ _).trans ?_
    have a1 : |(y.2 - x.2) * y.1 ^ k| ≤ halfUlp * 1 := by
      rw [abs_mul]
      exact mul_le_mul h2 (abs_pow_le_one h3 k) (abs_nonneg _) halfUlp_pos.le
    have a2 : |x.2 * (y.1 ^ k - x.1 ^ k)| ≤ x.2 * (k * halfUlp) := by
      rw [abs_mul, abs_of_nonneg hx.2]
      exact mul_le_mul_of_nonneg_left (pow_sub_le hx.1 h3 h1 k) hx.2
    have a3 := abs_add_le ((y.2 - x.2) * y.1 ^ k) (x.2 * (y.1 ^ k - x.1 ^ k))
    simp only [List.length_cons, Nat.cast_add, Nat.cast_one, pow_zero, mul_one] at ih' ⊢
    nlinarith [halfUlp_pos]

theorem literal_nodes {t : List (Int × Int)} (h : nodesOK t = true) :
    ∀ e ∈ literal t, |e.1| ≤ 1 ∧ 0 ≤ e.2 := by
  simp only [nodesOK, List.all_eq_true, decide_eq_true_eq] at h
  intro e he
  simp only [literal, List.mem_map] at he
  obtain ⟨z, hz, rfl⟩ := he
  obtain ⟨h1, h2, _⟩ := h z hz
  have h1' := (Nat.cast_le (α := ℝ)).mpr h1
  push_cast [Nat.cast_natAbs] at h1'
  have h2' : (0 : ℝ) < z.2 := by exact_mod_cast h2
  simp only [dec16]
  refine ⟨?_, by positivity⟩
  rw [abs_div, abs_of_pos (by positivity : (0 : ℝ) < 10 ^ 16), div_le_one (by positivity)]
  norm_num; exact h1'

theorem literal_length (t : List (Int × Int)) : (literal t).length = t.length := by simp [literal]

/-- The moments of a rule of at most 20 points are off by less than `2 · 10^(-14)` after storing. -/
theorem moment_bound {t : List (Int × Int)} {t' : List (ℝ × ℝ)} {d : ℕ} (hm : momentsOK t d = true)
    (hn : nodesOK t = true) (hl : t.length ≤ 20) (hd : d ≤ 39) (hs : Stored (literal t) t') {k : ℕ}
    (hk : k ≤ d) : |quadSum t' (fun x => x ^ k) - mom k| ≤ 2 / 10 ^ 14 := by
  simp only [momentsOK, List.all_eq_true, List.mem_range] at hm
  have m0 := moment_of_ok (hm 0 (by omega))
  have mk := moment_of_ok (hm k (by omega))
  have st := stored_moment hs (literal_nodes hn) k
  have w0 : quadSum (literal t) (fun x => x ^ 0) ≤ 21 / 10 := by
    have h := (abs_le.mp m0).2
    have : mom 0 = 2 := by simp [mom]
    rw [this] at h
    have : (1 : ℝ) / (2 * 10 ^ 14) ≤ 1 / 10 := by norm_num
    linarith
  have hL : ((literal t).length : ℝ) ≤ 20 := by rw [literal_length]; exact_mod_cast hl
  have hK : (k : ℝ) ≤ 39 := by exact_mod_cast hk.trans hd
  have hk0 : (0 : ℝ) ≤ k := Nat.cast_nonneg k
  have c : ((literal t).length + k * quadSum (literal t) (fun x => x ^ 0)) * halfUlp ≤ 102 * halfUlp := by
    refine mul_le_mul_of_nonneg_right ?_ halfUlp_pos.le
    nlinarith
  have u : 102 * halfUlp + 1 / 200000000000000 ≤ 2 / 10 ^ 14 := by unfold halfUlp; norm_num
  have e : quadSum t' (fun x => x ^ k) - mom k =
    (quadSum t' (fun x => x ^ k) - quadSum (literal t) (fun x => x ^ k)) +
    (quadSum (literal t) (fun x => x ^ k) - mom k) := by ring
  rw [e]
  exact (abs_add_le _ _).trans (by linarith)

theorem quadSum_sum {X : Type} (l : List (X × ℝ)) {ι : Type} (s : Finset ι) (c : ι → ℝ) (f : ι → X → ℝ) :
    quadSum l (fun x => ∑ i ∈ s, c i * f i x) = ∑ i ∈ s, c i * quadSum l (f i) := by
  induction l with
  | nil => simp [quadSum]
  | cons q l ih =>
    simp only [quadSum_cons, ih, Finset.mul_sum, ← Finset.sum_add_distrib]
    exact Finset.sum_congr rfl fun i _ => by ring

theorem eval_sum {d : ℕ} {r : ℝ[X]} (h : r.natDegree ≤ d) (x : ℝ) :
    r.eval x = ∑ k ∈ Finset.range (d + 1), r.coeff k * x ^ k :=
  eval_eq_sum_range' (by omega) x

theorem integral_eval {d : ℕ} {r : ℝ[X]} (h : r.natDegree ≤ d) :
    ∫ x in (-1 : ℝ)..1, r.eval x = ∑ k ∈ Finset.range (d + 1), r.coeff k * mom k := by
  simp only [eval_sum h]
  rw [intervalIntegral.integral_finset_sum]
  · refine Finset.sum_congr rfl fun k _ => ?_
    rw [intervalIntegral.integral_const_mul, integral_mom]
  · intro k _
    exact (continuous_const.mul (continuous_pow k)).intervalIntegrable _ _

/-- From moments to polynomials. -/
theorem poly_bound {t : List (ℝ × ℝ)} {d : ℕ} {ε : ℝ}
    (hm : ∀ k ≤ d, |quadSum t (fun x => x ^ k) - mom k| ≤ ε) {r : ℝ[X]} (h : r.natDegree ≤ d) :
    |quadSum t (fun x => r.eval x) - ∫ x in (-1 : ℝ)..1, r.eval x| ≤ ε * coeffSum d r := by
  rw [integral_eval h]
  simp only [eval_sum h]
  rw [quadSum_sum t (Finset.range (d + 1)) (fun k => r.coeff k) (fun k x => x ^ k), ← Finset.sum_sub_distrib,
    coeffSum, Finset.mul_sum]
  refine (Finset.abs_sum_le_sum_abs _ _).trans (Finset.sum_le_sum fun k hk => ?_)
  rw [← mul_sub, abs_mul, mul_comm]
  exact mul_le_mul_of_nonneg_right (hm k (by rw [Finset.mem_range] at hk; omega)) (abs_nonneg _)

theorem aff_eval (a b x : ℝ) : (aff a b).eval x = (a + b) / 2 + (b - a) / 2 * x := by simp [aff]

theorem aff_natDegree (a b : ℝ) : (aff a b).natDegree ≤ 1 := by
  unfold aff
  refine (natDegree_add_le _ _).trans ?_
  rw [natDegree_C]
  simpa using natDegree_C_mul_X_pow_le ((b - a) / 2) 1

theorem comp_natDegree {d : ℕ} {q : ℝ[X]} (h : q.natDegree ≤ d) (a b : ℝ) :
    (q.comp (aff a b)).natDegree ≤ d := by
  refine natDegree_comp_le.trans ?_
  calc q.natDegree * (aff a b).natDegree ≤ q.natDegree * 1 := Nat.mul_le_mul_left _ (aff_natDegree a b)
    _ ≤ d := by omega

theorem integral_comp_aff (q : ℝ[X]) (a b : ℝ) :
    ∫ x in a..b, q.eval x = (b - a) / 2 * ∫ x in (-1 : ℝ)..1, (q.comp (aff a b)).eval x := by
  simp only [eval_comp, aff_eval]
  rw [intervalIntegral.mul_integral_comp_add_mul (f := fun x => q.eval x)]
  congr 1 <;> ring

theorem quadSum_map {X Y : Type} (l : List (X × ℝ)) (F : X → Y) (c : ℝ) (f : Y → ℝ) :
    quadSum (l.map fun q => (F q.1, c * q.2)) f = c * quadSum l (fun x => f (F x)) := by
  induction l with
  | nil => simp [quadSum]
  | cons q l ih => rw [List.map_cons, quadSum_cons, ih, quadSum_cons]; ring

theorem stored_getD {lits : List (List (Int × Int))} {tab : List (List (ℝ × ℝ))}
    (h : StoredAll (lits.map literal) tab) (n : ℕ) : Stored (literal (lits.getD n [])) (tab.getD n []) := by
  unfold StoredAll at h
  induction lits generalizing tab n with
  | nil => cases h; simp [literal, Stored]
  | cons l lits ih =>
    cases h with
    | cons h1 h2 =>
      cases n with
      | zero => simpa using h1
      | succ n => simpa using ih h2 n

theorem stored_length {s t : List (List (ℝ × ℝ))} (h : StoredAll s t) : s.length = t.length :=
  List.Forall₂.length_eq h

theorem gauss_bound {tab : List (List (ℝ × ℝ))} (h : StoredAll (gaussRules.map literal) tab) {n : ℕ}
    (hn : n < 20) {k : ℕ} (hk : k ≤ 2 * n + 1) :
    |quadSum (tab.getD n []) (fun x => x ^ k) - mom k| ≤ 2 / 10 ^ 14 :=
  moment_bound (gauss_moments n hn) (gauss_nodes n hn) (by rw [gauss_length n hn]; omega) (by omega)
    (stored_getD h n) hk

theorem lobatto_bound {tab : List (List (ℝ × ℝ))} (h : StoredAll (lobattoRules.map literal) tab) {n : ℕ}
    (hn : n < 20) (h1 : 1 ≤ n) {k : ℕ} (hk : k ≤ 2 * n - 1) :
    |quadSum (tab.getD n []) (fun x => x ^ k) - mom k| ≤ 2 / 10 ^ 14 :=
  moment_bound (lobatto_moments n hn h1) (lobatto_nodes n hn) (by rw [lobatto_length n hn]; omega) (by omega)
    (stored_getD h n) hk

/-- The scalar drivers. -/
theorem scalar_bound {t : List (ℝ × ℝ)} {d : ℕ} {ε : ℝ}
    (hm : ∀ k ≤ d, |quadSum t (fun x => x ^ k) - mom k| ≤ ε) (a b : ℝ) {q : ℝ[X]} (hq : q.natDegree ≤ d) :
    |quadSum (t.map fun q => (1 / 2 * (a + b) + 1 / 2 * (b - a) * q.1, 1 / 2 * (b - a) * q.2))
        (fun x => q.eval x) - ∫ x in a..b, q.eval x|
      ≤ |b - a| / 2 * ε * coeffSum d (q.comp (aff a b)) := by
  have e := quadSum_map t (fun x => 1 / 2 * (a + b) + 1 / 2 * (b - a) * x) (1 / 2 * (b - a))
    (fun x => q.eval x)
  have e2 : ∀ x, q.eval (1 / 2 * (a + b) + 1 / 2 * (b - a) * x) = (q.comp (aff a b)).eval x := by
    intro x; rw [eval_comp, aff_eval]; congr 1; ring
  simp only [e2] at e
  rw [e, integral_comp_aff]
  have p := poly_bound hm (comp_natDegree hq a b)
  have e3 : 1 / 2 * (b - a) * quadSum t (fun x => (q.comp (aff a b)).eval x) -
      (b - a) / 2 * ∫ x in (-1 : ℝ)..1, (q.comp (aff a b)).eval x =
      (b - a) / 2 * (quadSum t (fun x => (q.comp (aff a b)).eval x) -
        ∫ x in (-1 : ℝ)..1, (q.comp (aff a b)).eval x) := by ring
  rw [e3, abs_mul, abs_div, abs_of_pos (by norm_num : (0 : ℝ) < 2), mul_assoc]
  exact mul_le_mul_of_nonneg_left p (by positivity)

theorem dist_nonneg {n : ℕ} (a b : Fin n → ℝ) : 0 ≤ dist a b := Real.sqrt_nonneg _

/-- The drivers for segments. -/
theorem segment_bound {n : ℕ} {t : List (ℝ × ℝ)} {d : ℕ} {ε : ℝ}
    (hm : ∀ k ≤ d, |quadSum t (fun x => x ^ k) - mom k| ≤ ε) (a b : Fin n → ℝ) {f : (Fin n → ℝ) → ℝ}
    {r : ℝ[X]} (hr : r.natDegree ≤ d) (hf : ∀ s, f (onSegment a b s) = r.eval s) :
    |quadSum (t.map fun q => (fun i => 1 / 2 * (a i + b i) + 1 / 2 * (b i - a i) * q.1,
        1 / 2 * dist a b * q.2)) f - dist a b / 2 * ∫ s in (-1 : ℝ)..1, f (onSegment a b s)|
      ≤ dist a b / 2 * ε * coeffSum d r := by
  have e := quadSum_map t (fun x => fun i => 1 / 2 * (a i + b i) + 1 / 2 * (b i - a i) * x)
    (1 / 2 * dist a b) f
  have e2 : ∀ x, f (fun i => 1 / 2 * (a i + b i) + 1 / 2 * (b i - a i) * x) = r.eval x := by
    intro x; rw [← hf]; congr 1; funext i; simp only [onSegment]; ring
  simp only [e2] at e
  rw [e]
  simp only [hf]
  have p := poly_bound hm hr
  have e3 : 1 / 2 * dist a b * quadSum t (fun x => r.eval x) -
      dist a b / 2 * ∫ x in (-1 : ℝ)..1, r.eval x =
      dist a b / 2 * (quadSum t (fun x => r.eval x) - ∫ x in (-1 : ℝ)..1, r.eval x) := by ring
  have h0 : 0 ≤ dist a b / 2 := by have := dist_nonneg a b; positivity
  rw [e3, abs_mul, abs_of_nonneg h0, mul_assoc]
  exact mul_le_mul_of_nonneg_left p h0

theorem lobattoNum_eq (d : ℕ) : lobattoNum d = d / 2 + 1 := by
  unfold lobattoNum
  dsimp only
  split_ifs <;> omega

/-- The literal tables are stored in the sense of the theorems, so the hypotheses can be met. -/
theorem literal_storedAll (lits : List (List (Int × Int))) (h : ∀ l ∈ lits, nodesOK l = true) :
    StoredAll (lits.map literal) (lits.map literal) := by
  unfold StoredAll
  refine List.forall₂_same.mpr fun t ht => ?_
  obtain ⟨l, hl, rfl⟩ := List.mem_map.mp ht
  refine List.forall₂_same.mpr fun e he => ?_
  simp only [sub_self, abs_zero]
  exact ⟨halfUlp_pos.le, halfUlp_pos.le, (literal_nodes (h l hl) e he).1⟩

end Verif.Quad
