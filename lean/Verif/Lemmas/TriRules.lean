import Verif.Lemmas.TriTables
import Verif.Lemmas.Poly2
import Verif.Lemmas.Polygon
import Verif.Model.TriRules
import Mathlib.Data.Nat.Factorial.Basic
/-!
Moments of the reference triangle, of stored triangle tables, and the error of triangle rules.
-/
namespace Verif.PlaneIntegral
open Verif.Spec Verif.Quad MeasureTheory

theorem beta_step (i j : ℕ) : ((i : ℝ) + 1) * ∫ u in (0 : ℝ)..1, u ^ i * (1 - u) ^ (j + 1) =
    ((j : ℝ) + 1) * ∫ u in (0 : ℝ)..1, u ^ (i + 1) * (1 - u) ^ j := by
  have h : ∀ x ∈ Set.uIcc (0 : ℝ) 1, HasDerivAt (fun u : ℝ => u ^ (i + 1) * (1 - u) ^ (j + 1))
      (((i : ℝ) + 1) * (x ^ i * (1 - x) ^ (j + 1)) - ((j : ℝ) + 1) * (x ^ (i + 1) * (1 - x) ^ j)) x := by
    intro x _
    have a := (hasDerivAt_pow (i + 1) x).mul (((hasDerivAt_id x).const_sub 1).pow (j + 1))
    refine a.congr_deriv ?_
    simp
    ring
  have k := intervalIntegral.integral_eq_sub_of_hasDerivAt h
    (Continuous.intervalIntegrable (by fun_prop) _ _)
  rw [intervalIntegral.integral_sub (Continuous.intervalIntegrable (by fun_prop) _ _)
    (Continuous.intervalIntegrable (by fun_prop) _ _), intervalIntegral.integral_const_mul,
    intervalIntegral.integral_const_mul] at k
  simp at k
  linarith

theorem beta (j i : ℕ) : ∫ u in (0 : ℝ)..1, u ^ i * (1 - u) ^ j =
    (i.factorial : ℝ) * j.factorial / (i + j + 1).factorial := by
  induction j generalizing i with
  | zero =>
    simp only [pow_zero, mul_one, integral_pow]
    rw [Nat.add_zero, Nat.factorial_succ]
    have : (i.factorial : ℝ) ≠ 0 := by exact_mod_cast i.factorial_ne_zero
    push_cast
    simp
    field_simp
  | succ j ih =>
    have h := beta_step i j
    rw [ih (i + 1)] at h
    have hi : ((i : ℝ) + 1) ≠ 0 := by positivity
    have e : i + 1 + j + 1 = i + (j + 1) + 1 := by omega
    rw [e, Nat.factorial_succ i] at h
    rw [Nat.factorial_succ j]
    apply mul_left_cancel₀ hi
    rw [h]
    push_cast
    ring

/-- The moments of the reference triangle. -/
noncomputable def triMom (i j : ℕ) : ℝ := (i.factorial : ℝ) * j.factorial / (i + j + 2).factorial

theorem refTri_mono (i j : ℕ) : refTri (fun u v => u ^ i * v ^ j) = triMom i j := by
  unfold refTri triMom
  have e : ∀ u : ℝ, ∫ v in (0 : ℝ)..(1 - u), u ^ i * v ^ j = 1 / ((j : ℝ) + 1) * (u ^ i * (1 - u) ^ (j + 1)) := by
    intro u
    rw [intervalIntegral.integral_const_mul, integral_pow]
    simp
    ring
  simp only [e]
  rw [intervalIntegral.integral_const_mul, beta, Nat.factorial_succ j]
  have : ((j : ℝ) + 1) ≠ 0 := by positivity
  have e2 : i + (j + 1) + 1 = i + j + 2 := by omega
  rw [e2]
  push_cast
  field_simp

theorem refTri_poly (l : Poly2) : refTri (fun u v => l.eval u v) =
    (l.map fun t => t.1 * refTri (fun u v => u ^ t.2.1 * v ^ t.2.2)).sum := by
  induction l with
  | nil => simp [refTri, eval_nil]
  | cons t l ih =>
    simp only [List.map_cons, List.sum_cons, ← ih, eval_cons]
    have c : Continuous fun p : ℝ × ℝ => Poly2.eval l p.1 p.2 := by
      clear ih
      induction l with
      | nil => simp only [eval_nil]; fun_prop
      | cons t l ih => simp only [eval_cons]; exact (by fun_prop : Continuous fun p : ℝ × ℝ =>
          t.1 * (p.1 ^ t.2.1 * p.2 ^ t.2.2)).add ih
    unfold refTri
    have i1 : ∀ u : ℝ, ∫ v in (0 : ℝ)..(1 - u), (t.1 * (u ^ t.2.1 * v ^ t.2.2) + Poly2.eval l u v) =
        (∫ v in (0 : ℝ)..(1 - u), t.1 * (u ^ t.2.1 * v ^ t.2.2)) + ∫ v in (0 : ℝ)..(1 - u), Poly2.eval l u v := by
      intro u
      refine intervalIntegral.integral_add (Continuous.intervalIntegrable (by fun_prop) _ _)
        (Continuous.intervalIntegrable ?_ _ _)
      exact c.comp (by fun_prop : Continuous fun v : ℝ => (u, v))
    simp only [i1]
    rw [intervalIntegral.integral_add]
    · simp only [intervalIntegral.integral_const_mul]
    · refine Continuous.intervalIntegrable ?_ _ _
      simp only [intervalIntegral.integral_const_mul, integral_pow]; fun_prop
    · refine Continuous.intervalIntegrable ?_ _ _
      exact intervalIntegral.continuous_parametric_intervalIntegral_of_continuous
        (f := fun u v => Poly2.eval l u v) c (by fun_prop)

/-- Collapsing the square to the reference triangle. -/
theorem duffy_mono (i j : ℕ) :
    sq (fun u v => ((1 + u) * (1 - v) / 4) ^ i * ((1 + v) / 2) ^ j * ((1 - v) / 8)) = triMom i j := by
  unfold sq
  have e : ∀ u : ℝ, ∫ v in (-1 : ℝ)..1, ((1 + u) * (1 - v) / 4) ^ i * ((1 + v) / 2) ^ j * ((1 - v) / 8) =
      ((1 + u) / 2) ^ i * (1 / 2 * ∫ t in (0 : ℝ)..1, t ^ j * (1 - t) ^ (i + 1)) := by
    intro u
    rw [int_half, ← intervalIntegral.integral_const_mul, ← intervalIntegral.integral_const_mul,
      ← intervalIntegral.integral_const_mul]
    congr 1; funext v
    have a : (1 : ℝ) - (1 / 2 + 1 / 2 * v) = (1 - v) / 2 := by ring
    have b : (1 : ℝ) / 2 + 1 / 2 * v = (1 + v) / 2 := by ring
    have c : (1 + u) * (1 - v) / 4 = ((1 + u) / 2) * ((1 - v) / 2) := by ring
    rw [a, b, c, mul_pow, pow_succ]
    ring
  simp only [e]
  have f : ∫ u in (-1 : ℝ)..1, ((1 + u) / 2) ^ i = 2 / ((i : ℝ) + 1) := by
    have := int_half (fun t => t ^ i)
    rw [integral_pow] at this
    have g : (fun s : ℝ => (1 / 2 + 1 / 2 * s) ^ i) = fun u => ((1 + u) / 2) ^ i := by
      funext s; congr 1; ring
    simp only [g] at this
    simp at this
    field_simp at this ⊢
    linarith
  rw [intervalIntegral.integral_mul_const, f, beta, Nat.factorial_succ i]
  unfold triMom
  have : ((i : ℝ) + 1) ≠ 0 := by positivity
  have e2 : j + (i + 1) + 1 = i + j + 2 := by omega
  rw [e2]
  push_cast
  field_simp

theorem duffy_poly (l : Poly2) :
    sq (fun u v => l.eval ((1 + u) * (1 - v) / 4) ((1 + v) / 2) * ((1 - v) / 8)) = refTri (fun u v => l.eval u v) := by
  rw [refTri_poly]
  simp only [refTri_mono]
  induction l with
  | nil => simp [sq, eval_nil]
  | cons t l ih =>
    rw [List.map_cons, List.sum_cons, ← ih, ← duffy_mono]
    simp only [eval_cons]
    have c : Continuous fun p : ℝ × ℝ => Poly2.eval l ((1 + p.1) * (1 - p.2) / 4) ((1 + p.2) / 2) * ((1 - p.2) / 8) := by
      refine Continuous.mul ?_ (by fun_prop)
      clear ih
      induction l with
      | nil => simp only [eval_nil]; fun_prop
      | cons t l ih => simp only [eval_cons]; exact (by fun_prop : Continuous fun p : ℝ × ℝ =>
          t.1 * (((1 + p.1) * (1 - p.2) / 4) ^ t.2.1 * ((1 + p.2) / 2) ^ t.2.2)).add ih
    unfold sq
    rw [← intervalIntegral.integral_const_mul, ← intervalIntegral.integral_add]
    · congr 1; funext u
      rw [← intervalIntegral.integral_const_mul, ← intervalIntegral.integral_add]
      · congr 1; funext v; ring
      · exact Continuous.intervalIntegrable (by fun_prop) _ _
      · exact Continuous.intervalIntegrable (c.comp (by fun_prop : Continuous fun v : ℝ => (u, v))) _ _
    · refine Continuous.intervalIntegrable ?_ _ _
      refine continuous_const.mul ?_
      exact intervalIntegral.continuous_parametric_intervalIntegral_of_continuous'
        (f := fun u v => ((1 + u) * (1 - v) / 4) ^ t.2.1 * ((1 + v) / 2) ^ t.2.2 * ((1 - v) / 8))
        (by unfold Function.uncurry; fun_prop) (-1) 1
    · refine Continuous.intervalIntegrable ?_ _ _
      exact intervalIntegral.continuous_parametric_intervalIntegral_of_continuous'
        (f := fun u v => Poly2.eval l ((1 + u) * (1 - v) / 4) ((1 + v) / 2) * ((1 - v) / 8)) c (-1) 1

/-! Stored tables. -/

theorem factN_eq (n : ℕ) : factN n = n.factorial := by
  induction n with
  | zero => rfl
  | succ n ih => rw [factN, ih, Nat.factorial_succ]

theorem triSum_eq (t : List ((ℕ × ℕ) × ℕ)) (i j : ℕ) :
    triSum t i j = (t.map fun e => e.2 * (e.1.1 ^ i * e.1.2 ^ j)).sum := by
  have : ∀ a : ℕ, t.foldl (fun s e => s + e.2 * (e.1.1 ^ i * e.1.2 ^ j)) a =
      a + (t.map fun e => e.2 * (e.1.1 ^ i * e.1.2 ^ j)).sum := by
    induction t with
    | nil => simp
    | cons e t ih => intro a; rw [List.foldl_cons, ih, List.map_cons, List.sum_cons]; omega
  rw [triSum, this]; omega

theorem literalTri_moment (t : List ((ℕ × ℕ) × ℕ)) (i j : ℕ) :
    quadSum (literalTri t) (fun z => z.1 ^ i * z.2 ^ j) = (triSum t i j : ℝ) / 10 ^ (21 * (i + j + 1)) := by
  rw [triSum_eq]
  induction t with
  | nil => simp [literalTri, quadSum]
  | cons e t ih =>
    have h0 : literalTri (e :: t) = ((dec21 e.1.1, dec21 e.1.2), dec21 e.2) :: literalTri t := rfl
    rw [h0, quadSum_cons, ih, List.map_cons, List.sum_cons]
    push_cast
    simp only [dec21]
    have h : (10 : ℝ) ^ (21 * (i + j + 1)) = 10 ^ 21 * ((10 ^ 21) ^ i * (10 ^ 21) ^ j) := by
      rw [pow_mul, ← pow_add]; ring
    rw [h, div_pow, div_pow, add_div, mul_div_mul_comm, mul_div_mul_comm]

theorem ndist_abs (a b : ℕ) : ((ndist a b : ℕ) : ℝ) = |(a : ℝ) - b| := by
  unfold ndist
  rcases le_total a b with h | h
  · rw [Nat.sub_eq_zero_of_le h, zero_add, Nat.cast_sub h, abs_sub_comm, abs_of_nonneg]
    exact sub_nonneg.mpr (by exact_mod_cast h)
  · rw [Nat.sub_eq_zero_of_le h, add_zero, Nat.cast_sub h, abs_of_nonneg]
    exact sub_nonneg.mpr (by exact_mod_cast h)

theorem tri_moment_abs {s a f D : ℕ} (hf : 0 < f) (hD : 0 < D)
    (h : Nat.ble (ndist (s * f) (a * D) * 200000000000000) (f * D) = true) :
    |(s : ℝ) / D - (a : ℝ) / f| ≤ 1 / 200000000000000 := by
  have h1 := (Nat.cast_le (α := ℝ)).mpr (Nat.le_of_ble_eq_true h)
  rw [Nat.cast_mul, ndist_abs] at h1
  push_cast at h1
  have hf' : (0 : ℝ) < f := by exact_mod_cast hf
  have hD' : (0 : ℝ) < D := by exact_mod_cast hD
  have e : (s : ℝ) / D - (a : ℝ) / f = (s * f - a * D) / (f * D) := by field_simp
  rw [e, abs_div, abs_of_pos (mul_pos hf' hD'), div_le_div_iff₀ (mul_pos hf' hD') (by norm_num), one_mul]
  exact h1

theorem tri_moment_of_ok {t : List ((ℕ × ℕ) × ℕ)} {i j : ℕ} (h : triMomentOK t i j = true) :
    |quadSum (literalTri t) (fun z => z.1 ^ i * z.2 ^ j) - triMom i j| ≤ 1 / 200000000000000 := by
  rw [literalTri_moment]
  unfold triMomentOK at h
  have hp : 0 < 10 ^ (21 * (i + j + 1)) := Nat.pow_pos (by norm_num)
  have hf : 0 < factN (i + j + 2) := by rw [factN_eq]; exact Nat.factorial_pos _
  have e : (10 : ℝ) ^ (21 * (i + j + 1)) = ((10 ^ (21 * (i + j + 1)) : ℕ) : ℝ) := by
    rw [Nat.cast_pow]; norm_num
  have m : triMom i j = ((factN i * factN j : ℕ) : ℝ) / (factN (i + j + 2) : ℕ) := by
    unfold triMom; simp only [factN_eq]; push_cast; rfl
  rw [e, m]
  exact tri_moment_abs hf hp h

theorem literalTri_nodes {t : List ((ℕ × ℕ) × ℕ)} (h : triNodesOK t = true) :
    ∀ e ∈ literalTri t, 0 ≤ e.1.1 ∧ 0 ≤ e.1.2 ∧ e.1.1 + e.1.2 ≤ 1 ∧ 0 ≤ e.2 := by
  simp only [triNodesOK, List.all_eq_true] at h
  intro e he
  simp only [literalTri, List.mem_map] at he
  obtain ⟨z, hz, rfl⟩ := he
  have h1 := (Nat.cast_le (α := ℝ)).mpr (Nat.le_of_ble_eq_true (h z hz))
  push_cast at h1
  simp only [dec21]
  refine ⟨by positivity, by positivity, ?_, by positivity⟩
  rw [← add_div, div_le_one (by positivity)]
  norm_num; exact h1

theorem prod_pow_sub_le {x y a b δ : ℝ} (hx : |x| ≤ 1) (hy : |y| ≤ 1) (ha : |a| ≤ 1) (hb : |b| ≤ 1)
    (h1 : |a - x| ≤ δ) (h2 : |b - y| ≤ δ) (i j : ℕ) : |a ^ i * b ^ j - x ^ i * y ^ j| ≤ (i + j) * δ := by
  have e : a ^ i * b ^ j - x ^ i * y ^ j = (a ^ i - x ^ i) * b ^ j + x ^ i * (b ^ j - y ^ j) := by ring
  rw [e]
  refine (abs_add_le _ _).trans ?_
  rw [abs_mul, abs_mul]
  have k1 := pow_sub_le hx ha h1 i
  have k2 := pow_sub_le hy hb h2 j
  have hδ : 0 ≤ δ := (abs_nonneg _).trans h1
  have l1 := mul_le_mul k1 (abs_pow_le_one hb j) (abs_nonneg _) (by positivity)
  have l2 := mul_le_mul (abs_pow_le_one hx i) k2 (abs_nonneg _) (by norm_num)
  linarith

theorem storedTri_moment {s t : List ((ℝ × ℝ) × ℝ)} (h : StoredTri s t)
    (hn : ∀ e ∈ s, 0 ≤ e.1.1 ∧ 0 ≤ e.1.2 ∧ e.1.1 + e.1.2 ≤ 1 ∧ 0 ≤ e.2) (i j : ℕ) :
    |quadSum t (fun z => z.1 ^ i * z.2 ^ j) - quadSum s (fun z => z.1 ^ i * z.2 ^ j)| ≤
      ((i + j + 1) * halfUlp) * quadSum s (fun z => z.1 ^ 0 * z.2 ^ 0) := by
  unfold StoredTri at h
  induction h with
  | nil => simp [quadSum]
  | @cons x y s t hxy _ ih =>
    obtain ⟨h1, h2, h3, h4, h5⟩ := hxy
    obtain ⟨n1, n2, n3, n4⟩ := hn x (by simp)
    have ih' := ih (fun e he => hn e (by simp [he]))
    rw [quadSum_cons, quadSum_cons, quadSum_cons]
    have x1 : |x.1.1| ≤ 1 := by rw [abs_of_nonneg n1]; linarith
    have x2 : |x.1.2| ≤ 1 := by rw [abs_of_nonneg n2]; linarith
    have k := prod_pow_sub_le x1 x2 h4 h5 h1 h2 i j
    have k0 : |y.1.1 ^ i * y.1.2 ^ j| ≤ 1 := by
      rw [abs_mul]
      exact mul_le_one₀ (abs_pow_le_one h4 i) (abs_nonneg _) (abs_pow_le_one h5 j)
    rw [abs_of_nonneg n4] at h3
    have e : ∀ A B : ℝ, y.2 * (y.1.1 ^ i * y.1.2 ^ j) + A - (x.2 * (x.1.1 ^ i * x.1.2 ^ j) + B) =
        (y.2 - x.2) * (y.1.1 ^ i * y.1.2 ^ j) + x.2 * (y.1.1 ^ i * y.1.2 ^ j - x.1.1 ^ i * x.1.2 ^ j) +
          (A - B) := by intro A B; ring
    rw [e]
    have a1 : |(y.2 - x.2) * (y.1.1 ^ i * y.1.2 ^ j)| ≤ halfUlp * x.2 * 1 := by
      rw [abs_mul]
      exact mul_le_mul h3 k0 (abs_nonneg _) (mul_nonneg halfUlp_pos.le n4)
    have a2 : |x.2 * (y.1.1 ^ i * y.1.2 ^ j - x.1.1 ^ i * x.1.2 ^ j)| ≤ x.2 * ((i + j) * halfUlp) := by
      rw [abs_mul, abs_of_nonneg n4]
      exact mul_le_mul_of_nonneg_left k n4
    refine (abs_add_le _ _).trans ?_
    have a3 := abs_add_le ((y.2 - x.2) * (y.1.1 ^ i * y.1.2 ^ j))
      (x.2 * (y.1.1 ^ i * y.1.2 ^ j - x.1.1 ^ i * x.1.2 ^ j))
    simp only [pow_zero, mul_one] at ih' ⊢
    linarith

theorem storedTri_getD {lits : List (List ((ℕ × ℕ) × ℕ))} {tab : List TriRule}
    (h : List.Forall₂ StoredTri (lits.map literalTri) tab) (n : ℕ) :
    StoredTri (literalTri (lits.getD n [])) (tab.getD n []) := by
  induction lits generalizing tab n with
  | nil => cases h; simp [literalTri, StoredTri]
  | cons l lits ih =>
    cases h with
    | cons h1 h2 =>
      cases n with
      | zero => simpa using h1
      | succ n => simpa using ih h2 n

/-- The moments of the triangle rules are off by less than `10^(-14)` after storing. -/
theorem tri_bound {tab : List TriRule} (h : List.Forall₂ StoredTri (triGaussRules.map literalTri) tab) {n : ℕ}
    (hn : n < 30) {i j : ℕ} (hij : i + j ≤ n + 1) :
    |quadSum (tab.getD n []) (fun z => z.1 ^ i * z.2 ^ j) - triMom i j| ≤ 1 / 10 ^ 14 := by
  have hm := tri_moments n hn
  simp only [triMomentsOK, List.all_eq_true, List.mem_range] at hm
  have m0 := tri_moment_of_ok (hm 0 (by omega) 0 (by omega))
  have mk := tri_moment_of_ok (hm i (by omega) j (by omega))
  have st := storedTri_moment (storedTri_getD h n) (literalTri_nodes (tri_nodes n hn)) i j
  generalize triGaussRules.getD n [] = t at m0 mk st
  have w0 : quadSum (literalTri t) (fun z => z.1 ^ 0 * z.2 ^ 0) ≤ 51 / 100 := by
    have h := (abs_le.mp m0).2
    have e : triMom 0 0 = 1 / 2 := by simp [triMom]
    rw [e] at h
    have : (1 : ℝ) / 200000000000000 ≤ 1 / 100 := by norm_num
    linarith
  have hij' : (i : ℝ) + j + 1 ≤ 31 := by
    have : i + j + 1 ≤ 31 := by omega
    exact_mod_cast this
  have c : ((i + j + 1 : ℝ) * halfUlp) * quadSum (literalTri t) (fun z => z.1 ^ 0 * z.2 ^ 0) ≤
      31 * halfUlp * (51 / 100) := by
    have h1 : (i + j + 1 : ℝ) * halfUlp ≤ 31 * halfUlp := mul_le_mul_of_nonneg_right hij' halfUlp_pos.le
    have h2 : 0 ≤ (i + j + 1 : ℝ) * halfUlp := mul_nonneg (by positivity) halfUlp_pos.le
    calc _ ≤ ((i + j + 1 : ℝ) * halfUlp) * (51 / 100) := mul_le_mul_of_nonneg_left w0 h2
      _ ≤ _ := mul_le_mul_of_nonneg_right h1 (by norm_num)
  have u : 31 * halfUlp * (51 / 100) + 1 / 200000000000000 ≤ 1 / 10 ^ 14 := by unfold halfUlp; norm_num
  have e : ∀ A B C : ℝ, A - C = (A - B) + (B - C) := by intros; ring
  rw [e _ (quadSum (literalTri t) (fun z => z.1 ^ i * z.2 ^ j))]
  exact (abs_add_le _ _).trans (by linarith)

/-! Triangles. -/

theorem Rep.affine {c0 c1 c2 ρ : ℝ} (h : |c0| + |c1| + |c2| ≤ ρ) :
    Rep (Tot 1) ρ (fun u v => c0 + c1 * u + c2 * v) := by
  have a := ((Rep.term (D := Tot 1) (i := 0) (j := 0) c0 (by simp [Tot])).add
    (Rep.term (D := Tot 1) (i := 1) (j := 0) c1 (by simp [Tot]))).add
    (Rep.term (D := Tot 1) (i := 0) (j := 1) c2 (by simp [Tot]))
  have b := a.mono (fun _ _ h => h) h
  simpa using b

/-- Error of a triangle rule on the reference triangle. -/
theorem tri_rule_bound {r : TriRule} {n : ℕ}
    (hm : ∀ i j, i + j ≤ n → |quadSum r (fun z => z.1 ^ i * z.2 ^ j) - triMom i j| ≤ 1 / 10 ^ 14) {C : ℝ}
    {h : ℝ → ℝ → ℝ} (hr : Rep (Tot n) C h) :
    |quadSum r (fun z => h z.1 z.2) - refTri h| ≤ 1 / 10 ^ 14 * C := by
  refine hr.bound (fun h => quadSum r (fun z => h z.1 z.2)) refTri
    (fun l => quadSum_poly r Prod.fst Prod.snd l) refTri_poly (by norm_num) ?_
  intro i j hij
  simp only [refTri_mono]
  exact hm i j hij

theorem Rep.poly {D : ℕ → ℕ → Prop} {C : ℝ} {h : ℝ → ℝ → ℝ} (r : Rep D C h) :
    ∃ l : Poly2, ∀ u v, h u v = l.eval u v := by
  obtain ⟨l, _, _, h⟩ := r; exact ⟨l, h⟩

/-- The polynomial on the triangle `p0 p1 p2` in reference coordinates. -/
noncomputable def onTri (f : Poly2) (z p0 p1 p2 : P2 ℝ) (u v : ℝ) : ℝ :=
  f.eval ((p0.x - z.x) + (p1.x - p0.x) * u + (p2.x - p0.x) * v)
    ((p0.y - z.y) + (p1.y - p0.y) * u + (p2.y - p0.y) * v)

/-- The triangle integral by Green's formula is the one on the reference triangle. -/
theorem tri_green (f : Poly2) (z p0 p1 p2 : P2 ℝ) {D : ℕ → ℕ → Prop} {C : ℝ}
    (hr : Rep D C (onTri f z p0 p1 p2)) :
    polyInt f z [p0, p1, p2] = turn p0 p1 p2 * refTri (onTri f z p0 p1 p2) := by
  obtain ⟨Fy, hC⟩ := C1.poly f z.x z.y
  have g := green hC p0 p1 p2 p2
  rw [edgeInt_self, add_zero] at g
  have s : polyInt f z [p0, p1, p2] = edgeInt (fun x y => f.primX.eval (x - z.x) (y - z.y)) p0 p1 +
      edgeInt (fun x y => f.primX.eval (x - z.x) (y - z.y)) p1 p2 +
      edgeInt (fun x y => f.primX.eval (x - z.x) (y - z.y)) p2 p0 := by
    simp [polyInt, boundaryInt, sides]; ring
  rw [s, ← g]
  obtain ⟨l, hl⟩ := hr.poly
  have e : onTri f z p0 p1 p2 = fun u v => l.eval u v := by funext u v; exact hl u v
  rw [e, ← duffy_poly]
  unfold sq
  rw [← intervalIntegral.integral_const_mul]
  congr 1; funext u
  rw [← intervalIntegral.integral_const_mul]
  congr 1; funext v
  have k := hl ((1 + u) * (1 - v) / 4) ((1 + v) / 2)
  beta_reduce
  rw [← k]
  have j : jac p0 p1 p2 p2 u v = turn p0 p1 p2 * ((1 - v) / 8) := by unfold jac turn; ring
  have ex : (bilMap p0 p1 p2 p2 (u, v)).x - z.x =
      (p0.x - z.x) + (p1.x - p0.x) * ((1 + u) * (1 - v) / 4) + (p2.x - p0.x) * ((1 + v) / 2) := by
    simp only [bilMap, bil]; ring
  have ey : (bilMap p0 p1 p2 p2 (u, v)).y - z.y =
      (p0.y - z.y) + (p1.y - p0.y) * ((1 + u) * (1 - v) / 4) + (p2.y - p0.y) * ((1 + v) / 2) := by
    simp only [bilMap, bil]; ring
  rw [j, ex, ey]
  unfold onTri
  ring

/-- The rule on a triangle in terms of the reference rule. -/
theorem tri_quadSum (r : TriRule) (f : Poly2) (z p0 p1 p2 : P2 ℝ) (A : ℝ) :
    quadSum (r.map fun g => ((⟨p0.x + (p1.x - p0.x) * g.1.1 + (p2.x - p0.x) * g.1.2,
      p0.y + (p1.y - p0.y) * g.1.1 + (p2.y - p0.y) * g.1.2⟩ : P2 ℝ), 2 * g.2 * A))
      (fun p => f.eval (p.x - z.x) (p.y - z.y)) =
    2 * A * quadSum r (fun g => onTri f z p0 p1 p2 g.1 g.2) := by
  induction r with
  | nil => simp [quadSum]
  | cons g r ih =>
    rw [List.map_cons, quadSum_cons, ih, quadSum_cons]
    have ex : p0.x + (p1.x - p0.x) * g.1.1 + (p2.x - p0.x) * g.1.2 - z.x =
      (p0.x - z.x) + (p1.x - p0.x) * g.1.1 + (p2.x - p0.x) * g.1.2 := by ring
    have ey : p0.y + (p1.y - p0.y) * g.1.1 + (p2.y - p0.y) * g.1.2 - z.y =
      (p0.y - z.y) + (p1.y - p0.y) * g.1.1 + (p2.y - p0.y) * g.1.2 := by ring
    simp only [ex, ey]
    unfold onTri
    ring

theorem Rep.tri {z p0 p1 p2 : P2 ℝ} {ρ : ℝ}
    (hx : |p0.x - z.x| + |p1.x - p0.x| + |p2.x - p0.x| ≤ ρ)
    (hy : |p0.y - z.y| + |p1.y - p0.y| + |p2.y - p0.y| ≤ ρ) (f : Poly2) {d : ℕ} (hf : f.DegLE d) :
    Rep (Tot d) (f.size ρ) (onTri f z p0 p1 p2) :=
  Rep.comp_tot (Rep.affine hx) (Rep.affine hy) f hf

/-- Error of the rule of a counter-clockwise triangle. -/
theorem triangle_error {r : TriRule} {d : ℕ}
    (hm : ∀ i j, i + j ≤ d → |quadSum r (fun z => z.1 ^ i * z.2 ^ j) - triMom i j| ≤ 1 / 10 ^ 14)
    {z p0 p1 p2 : P2 ℝ} {ρ : ℝ}
    (hx : |p0.x - z.x| + |p1.x - p0.x| + |p2.x - p0.x| ≤ ρ)
    (hy : |p0.y - z.y| + |p1.y - p0.y| + |p2.y - p0.y| ≤ ρ) (f : Poly2) (hf : f.DegLE d)
    (ht : 0 ≤ turn p0 p1 p2) :
    |quadSum (r.map fun g => ((⟨p0.x + (p1.x - p0.x) * g.1.1 + (p2.x - p0.x) * g.1.2,
      p0.y + (p1.y - p0.y) * g.1.1 + (p2.y - p0.y) * g.1.2⟩ : P2 ℝ), 2 * g.2 * Polygon.triMeasure p0 p1 p2))
      (fun p => f.eval (p.x - z.x) (p.y - z.y)) - polyInt f z [p0, p1, p2]| ≤
    turn p0 p1 p2 * (1 / 10 ^ 14 * f.size ρ) := by
  have hr := Rep.tri hx hy f hf
  rw [tri_quadSum, Polygon.triMeasure_eq, tri_green f z p0 p1 p2 hr, abs_of_nonneg ht]
  have e : ∀ Q I : ℝ, 2 * (turn p0 p1 p2 / 2) * Q - turn p0 p1 p2 * I = turn p0 p1 p2 * (Q - I) := by
    intros; ring
  rw [e, abs_mul, abs_of_nonneg ht]
  exact mul_le_mul_of_nonneg_left (tri_rule_bound hm hr) ht

theorem polyInt_tri_swap (f : Poly2) (z p0 p1 p2 : P2 ℝ) :
    polyInt f z [p0, p2, p1] = -polyInt f z [p0, p1, p2] := by
  simp only [polyInt, boundaryInt, sides, List.rotate_cons_succ, List.rotate_zero, List.cons_append,
    List.nil_append, List.zip_cons_cons, List.zip_nil_right, List.map_cons, List.map_nil, List.sum_cons,
    List.sum_nil]
  rw [edgeInt_swap _ p2 p0, edgeInt_swap _ p1 p2, edgeInt_swap _ p0 p1]; ring

/-- Error of the rule of a clockwise triangle. -/
theorem triangle_error_cw {r : TriRule} {d : ℕ}
    (hm : ∀ i j, i + j ≤ d → |quadSum r (fun z => z.1 ^ i * z.2 ^ j) - triMom i j| ≤ 1 / 10 ^ 14)
    {z p0 p1 p2 : P2 ℝ} {ρ : ℝ}
    (hx : |p0.x - z.x| + |p1.x - p0.x| + |p2.x - p0.x| ≤ ρ)
    (hy : |p0.y - z.y| + |p1.y - p0.y| + |p2.y - p0.y| ≤ ρ) (f : Poly2) (hf : f.DegLE d)
    (ht : turn p0 p1 p2 ≤ 0) :
    |quadSum (r.map fun g => ((⟨p0.x + (p1.x - p0.x) * g.1.1 + (p2.x - p0.x) * g.1.2,
      p0.y + (p1.y - p0.y) * g.1.1 + (p2.y - p0.y) * g.1.2⟩ : P2 ℝ), 2 * g.2 * Polygon.triMeasure p0 p1 p2))
      (fun p => f.eval (p.x - z.x) (p.y - z.y)) - polyInt f z [p0, p2, p1]| ≤
    turn p0 p2 p1 * (1 / 10 ^ 14 * f.size ρ) := by
  have hr := Rep.tri hx hy f hf
  have es : turn p0 p2 p1 = -turn p0 p1 p2 := by unfold turn; ring
  have h0 : 0 ≤ turn p0 p2 p1 := by rw [es]; linarith
  rw [polyInt_tri_swap, tri_quadSum, Polygon.triMeasure_eq, tri_green f z p0 p1 p2 hr, abs_of_nonpos ht, ← es]
  have e : ∀ Q I : ℝ, 2 * (turn p0 p2 p1 / 2) * Q - -(turn p0 p1 p2 * I) = turn p0 p2 p1 * (Q - I) := by
    intros; rw [es]; ring
  rw [e, abs_mul, abs_of_nonneg h0]
  exact mul_le_mul_of_nonneg_left (tri_rule_bound hm hr) h0

theorem tri_quadSum3 (r : TriRule) (f : P3 ℝ → ℝ) (h : Poly2) (p0 p1 p2 : P3 ℝ)
    (hf : ∀ u v, f ⟨p0.x + (p1.x - p0.x) * u + (p2.x - p0.x) * v, p0.y + (p1.y - p0.y) * u + (p2.y - p0.y) * v,
      p0.z + (p1.z - p0.z) * u + (p2.z - p0.z) * v⟩ = h.eval u v) (A : ℝ) :
    quadSum (r.map fun g => ((⟨p0.x + (p1.x - p0.x) * g.1.1 + (p2.x - p0.x) * g.1.2,
      p0.y + (p1.y - p0.y) * g.1.1 + (p2.y - p0.y) * g.1.2,
      p0.z + (p1.z - p0.z) * g.1.1 + (p2.z - p0.z) * g.1.2⟩ : P3 ℝ), 2 * g.2 * A)) f =
    2 * A * quadSum r (fun g => h.eval g.1 g.2) := by
  induction r with
  | nil => simp [quadSum]
  | cons g r ih =>
    rw [List.map_cons, quadSum_cons, ih, quadSum_cons, hf]; ring

theorem Rep.self (h : Poly2) {d : ℕ} (hh : h.DegLE d) : Rep (Tot d) (h.size 1) (fun u v => h.eval u v) := by
  refine ⟨h, fun t ht => hh t ht, ?_, fun _ _ => rfl⟩
  simp [Poly2.size]

/-- The tables as written can be stored. -/
theorem literalTri_stored (lits : List (List ((ℕ × ℕ) × ℕ))) (h : ∀ l ∈ lits, triNodesOK l = true) :
    List.Forall₂ StoredTri (lits.map literalTri) (lits.map literalTri) := by
  refine List.forall₂_same.mpr fun t ht => ?_
  obtain ⟨l, hl, rfl⟩ := List.mem_map.mp ht
  refine List.forall₂_same.mpr fun e he => ?_
  simp only [sub_self, abs_zero]
  have n := literalTri_nodes (h l hl) e he
  obtain ⟨n1, n2, n3, _⟩ := n
  exact ⟨halfUlp_pos.le, halfUlp_pos.le, mul_nonneg halfUlp_pos.le (abs_nonneg _),
    abs_le.mpr ⟨by linarith, by linarith⟩, abs_le.mpr ⟨by linarith, by linarith⟩⟩

/-! Quadrilaterals. -/

/-- The one-point rule. -/
theorem gauss_first {gtab : List (List (ℝ × ℝ))} (hg : StoredAll (gaussRules.map literal) gtab) :
    ∃ x w : ℝ, gtab.getD 0 [] = [(x, w)] ∧ |x| ≤ 1 / 1000 ∧ |w - 2| ≤ 1 / 1000 := by
  have h := stored_getD hg 0
  have e : literal (gaussRules.getD 0 []) = [(0, 2)] := by
    simp [gaussRules, gauss1, literal, dec16]
    norm_num
  rw [e] at h
  unfold Stored at h
  obtain ⟨y, l, hy, hl, he⟩ := List.forall₂_cons_left_iff.mp h
  rw [List.forall₂_nil_left_iff] at hl
  subst hl
  have hu : halfUlp ≤ 1 / 1000 := by unfold halfUlp; norm_num
  refine ⟨y.1, y.2, by rw [he], ?_, ?_⟩
  · have := hy.1; simp only [sub_zero] at this; linarith
  · exact hy.2.1.trans hu

theorem edgeInt_const_y (F : ℝ → ℝ → ℝ) (a b c : ℝ) : edgeInt F ⟨a, c⟩ ⟨b, c⟩ = 0 := by simp [edgeInt]

theorem trapezoid_integral :
    polyInt [(1, 1, 0)] ⟨0, 0⟩ [(⟨0, 0⟩ : P2 ℝ), ⟨3, 0⟩, ⟨1, 1⟩, ⟨0, 1⟩] = 13 / 6 := by
  simp only [polyInt, boundaryInt, sides, List.rotate_cons_succ, List.rotate_zero, List.cons_append,
    List.nil_append, List.zip_cons_cons, List.zip_nil_right, List.map_cons, List.map_nil, List.sum_cons,
    List.sum_nil, edgeInt_const_y]
  simp only [edgeInt, Poly2.primX, Poly2.eval, List.map_cons, List.map_nil, List.sum_cons, List.sum_nil]
  have e : ∀ t : ℝ, (1 / (((1 : ℕ) : ℝ) + 1) * ((3 + t * (1 - 3) - 0) ^ (1 + 1) * (0 + t * (1 - 0) - 0) ^ 0) + 0) * (1 - 0) =
      9 / 2 - 6 * t + 2 * t ^ 2 := by intro t; norm_num; ring
  simp only [e]
  have c : ∫ t in (0 : ℝ)..1, (9 / 2 - 6 * t + 2 * t ^ 2) = 13 / 6 := by
    rw [intervalIntegral.integral_add (by apply Continuous.intervalIntegrable; fun_prop)
      (by apply Continuous.intervalIntegrable; fun_prop),
      intervalIntegral.integral_sub (by apply Continuous.intervalIntegrable; fun_prop)
      (by apply Continuous.intervalIntegrable; fun_prop)]
    rw [intervalIntegral.integral_const_mul, intervalIntegral.integral_const_mul]
    simp only [intervalIntegral.integral_const, integral_id, integral_pow]
    norm_num
  rw [c]
  norm_num

theorem edgeInt_vert (F : ℝ → ℝ → ℝ) (a b e : ℝ) : edgeInt F ⟨a, b⟩ ⟨a, e⟩ = ∫ y in b..e, F a y := by
  unfold edgeInt
  simp only [sub_self, mul_zero, add_zero]
  rw [intervalIntegral.integral_mul_const]
  have h := intervalIntegral.smul_integral_comp_mul_add (a := 0) (b := 1) (fun y => F a y) (e - b) b
  simp only [mul_zero, zero_add, mul_one, smul_eq_mul] at h
  have e1 : e - b + b = e := by ring
  rw [e1] at h
  rw [← h, mul_comm]
  congr 1
  congr 1; funext t
  congr 1; ring

theorem eval_continuous (f : Poly2) : Continuous fun p : ℝ × ℝ => f.eval p.1 p.2 := by
  induction f with
  | nil => simpa [Poly2.eval] using continuous_const
  | cons t f ih =>
    have s : (fun p : ℝ × ℝ => Poly2.eval (t :: f) p.1 p.2) =
        fun p => t.1 * (p.1 ^ t.2.1 * p.2 ^ t.2.2) + Poly2.eval f p.1 p.2 := by funext p; simp [Poly2.eval]
    rw [s]
    exact Continuous.add (by fun_prop) ih

theorem primX_integral (f : Poly2) (a c y : ℝ) (z : P2 ℝ) :
    ∫ x in a..c, f.eval (x - z.x) (y - z.y) = f.primX.eval (c - z.x) (y - z.y) - f.primX.eval (a - z.x) (y - z.y) := by
  rw [intervalIntegral.integral_comp_sub_right (fun x => f.eval x (y - z.y)) z.x]
  induction f with
  | nil => simp [Poly2.eval, Poly2.primX]
  | cons t f ih =>
    have s : ∀ x, Poly2.eval (t :: f) x (y - z.y) = t.1 * (x ^ t.2.1 * (y - z.y) ^ t.2.2) + Poly2.eval f x (y - z.y) := by
      intro x; simp [Poly2.eval]
    have s' : ∀ x, (Poly2.primX (t :: f)).eval x (y - z.y) =
        t.1 / ((t.2.1 : ℝ) + 1) * (x ^ (t.2.1 + 1) * (y - z.y) ^ t.2.2) + (Poly2.primX f).eval x (y - z.y) := by
      intro x; simp [Poly2.eval, Poly2.primX]
    have cf : Continuous fun x => Poly2.eval f x (y - z.y) :=
      (eval_continuous f).comp (Continuous.prodMk continuous_id continuous_const)
    simp only [s, s']
    rw [intervalIntegral.integral_add (by apply Continuous.intervalIntegrable; fun_prop) (cf.intervalIntegrable _ _), ih,
      intervalIntegral.integral_const_mul, intervalIntegral.integral_mul_const, integral_pow]
    ring

theorem polyInt_rectangle (f : Poly2) (a b c e : ℝ) (z : P2 ℝ) :
    polyInt f z [⟨a, b⟩, ⟨c, b⟩, ⟨c, e⟩, ⟨a, e⟩] =
      ∫ y in b..e, ∫ x in a..c, f.eval (x - z.x) (y - z.y) := by
  simp only [polyInt, boundaryInt, sides, List.rotate_cons_succ, List.rotate_zero, List.cons_append,
    List.nil_append, List.zip_cons_cons, List.zip_nil_right, List.map_cons, List.map_nil, List.sum_cons,
    List.sum_nil, edgeInt_const_y, edgeInt_vert, primX_integral]
  have cc : ∀ x : ℝ, Continuous fun y => f.primX.eval (x - z.x) (y - z.y) := fun x =>
    (eval_continuous f.primX).comp (Continuous.prodMk continuous_const (continuous_id.sub continuous_const))
  rw [intervalIntegral.integral_sub ((cc c).intervalIntegrable _ _) ((cc a).intervalIntegrable _ _),
    intervalIntegral.integral_symm b e (f := fun y => f.primX.eval (a - z.x) (y - z.y))]
  ring

theorem polyInt_one (z : P2 ℝ) (pts : List (P2 ℝ)) : polyInt [(1, 0, 0)] z pts = shoelace pts / 2 := by
  have h : ∀ e : P2 ℝ × P2 ℝ, edgeInt (fun x y => (Poly2.primX [(1, 0, 0)]).eval (x - z.x) (y - z.y)) e.1 e.2 =
      1 / 2 * (e.1.x * e.2.y - e.2.x * e.1.y) + ((e.2.x * e.2.y / 2 - z.x * e.2.y) - (e.1.x * e.1.y / 2 - z.x * e.1.y)) := by
    intro e
    simp only [edgeInt, Poly2.primX, Poly2.eval, List.map_cons, List.map_nil, List.sum_cons, List.sum_nil]
    have k : ∀ t : ℝ, (1 / (((0 : ℕ) : ℝ) + 1) * ((e.1.x + t * (e.2.x - e.1.x) - z.x) ^ (0 + 1) *
        (e.1.y + t * (e.2.y - e.1.y) - z.y) ^ 0) + 0) * (e.2.y - e.1.y) =
        (e.1.x - z.x) * (e.2.y - e.1.y) + ((e.2.x - e.1.x) * (e.2.y - e.1.y)) * t := by
      intro t; norm_num; ring
    simp only [k]
    rw [intervalIntegral.integral_add (by apply Continuous.intervalIntegrable; fun_prop)
      (by apply Continuous.intervalIntegrable; fun_prop), intervalIntegral.integral_const,
      intervalIntegral.integral_const_mul, integral_id]
    simp only [smul_eq_mul]
    ring
  unfold polyInt boundaryInt
  simp only [h]
  rw [Polygon.sum_add_map]
  have t := Polygon.sum_telescope pts (fun p => p.x * p.y / 2 - z.x * p.y)
  rw [t, add_zero, List.sum_map_mul_left]
  unfold shoelace
  ring


theorem Rep.bil {c0 c1 c2 c3 ρ : ℝ} (h : bilSum c0 c1 c2 c3 ≤ ρ) :
    Rep (Box 1) ρ (fun u v => bil c0 c1 c2 c3 u v) := by
  have a := (((Rep.term (D := Box 1) (i := 0) (j := 0) (b0 c0 c1 c2 c3) (by simp [Box])).add
    (Rep.term (D := Box 1) (i := 1) (j := 0) (bx c0 c1 c2 c3) (by simp [Box]))).add
    (Rep.term (D := Box 1) (i := 0) (j := 1) (by' c0 c1 c2 c3) (by simp [Box]))).add
    (Rep.term (D := Box 1) (i := 1) (j := 1) (bxy c0 c1 c2 c3) (by simp [Box]))
  have b := a.mono (fun _ _ h => h) h
  simp only [bil_eq]
  simpa using b

/-- Coefficients of the Jacobian. -/
noncomputable def j0 (p0 p1 p2 p3 : P2 ℝ) : ℝ :=
  bx p0.x p1.x p2.x p3.x * by' p0.y p1.y p2.y p3.y - by' p0.x p1.x p2.x p3.x * bx p0.y p1.y p2.y p3.y
noncomputable def j1 (p0 p1 p2 p3 : P2 ℝ) : ℝ :=
  bx p0.x p1.x p2.x p3.x * bxy p0.y p1.y p2.y p3.y - bxy p0.x p1.x p2.x p3.x * bx p0.y p1.y p2.y p3.y
noncomputable def j2 (p0 p1 p2 p3 : P2 ℝ) : ℝ :=
  bxy p0.x p1.x p2.x p3.x * by' p0.y p1.y p2.y p3.y - by' p0.x p1.x p2.x p3.x * bxy p0.y p1.y p2.y p3.y

theorem jac_lin (p0 p1 p2 p3 : P2 ℝ) (u v : ℝ) :
    jac p0 p1 p2 p3 u v = j0 p0 p1 p2 p3 + j1 p0 p1 p2 p3 * u + j2 p0 p1 p2 p3 * v := by
  rw [jac_eq]; unfold j0 j1 j2; ring

theorem j0_area (p0 p1 p2 p3 : P2 ℝ) : j0 p0 p1 p2 p3 = shoelace [p0, p1, p2, p3] / 8 := by
  simp [j0, bx, by', shoelace, sides]; ring

/-- All four corners turn left. -/
def Corners (p0 p1 p2 p3 : P2 ℝ) : Prop :=
  0 ≤ turn p3 p0 p1 ∧ 0 ≤ turn p0 p1 p2 ∧ 0 ≤ turn p1 p2 p3 ∧ 0 ≤ turn p2 p3 p0

theorem corners_j {p0 p1 p2 p3 : P2 ℝ} (h : Corners p0 p1 p2 p3) :
    |j1 p0 p1 p2 p3| + |j2 p0 p1 p2 p3| ≤ j0 p0 p1 p2 p3 := by
  obtain ⟨h1, h2, h3, h4⟩ := h
  have e1 : turn p3 p0 p1 = 4 * (j0 p0 p1 p2 p3 - j1 p0 p1 p2 p3 - j2 p0 p1 p2 p3) := by
    simp only [turn, j0, j1, j2, bx, by', bxy]; ring
  have e2 : turn p0 p1 p2 = 4 * (j0 p0 p1 p2 p3 + j1 p0 p1 p2 p3 - j2 p0 p1 p2 p3) := by
    simp only [turn, j0, j1, j2, bx, by', bxy]; ring
  have e3 : turn p1 p2 p3 = 4 * (j0 p0 p1 p2 p3 + j1 p0 p1 p2 p3 + j2 p0 p1 p2 p3) := by
    simp only [turn, j0, j1, j2, bx, by', bxy]; ring
  have e4 : turn p2 p3 p0 = 4 * (j0 p0 p1 p2 p3 - j1 p0 p1 p2 p3 + j2 p0 p1 p2 p3) := by
    simp only [turn, j0, j1, j2, bx, by', bxy]; ring
  rw [e1] at h1; rw [e2] at h2; rw [e3] at h3; rw [e4] at h4
  rcases abs_cases (j1 p0 p1 p2 p3) with ⟨a, _⟩ | ⟨a, _⟩ <;>
    rcases abs_cases (j2 p0 p1 p2 p3) with ⟨b, _⟩ | ⟨b, _⟩ <;> rw [a, b] <;> linarith

theorem jac_nonneg {p0 p1 p2 p3 : P2 ℝ} (h : Corners p0 p1 p2 p3) {u v : ℝ} (hu : |u| ≤ 1) (hv : |v| ≤ 1) :
    0 ≤ jac p0 p1 p2 p3 u v := by
  have k := corners_j h
  rw [jac_lin]
  have a : |j1 p0 p1 p2 p3 * u| ≤ |j1 p0 p1 p2 p3| * 1 := by
    rw [abs_mul]; exact mul_le_mul_of_nonneg_left hu (abs_nonneg _)
  have b : |j2 p0 p1 p2 p3 * v| ≤ |j2 p0 p1 p2 p3| * 1 := by
    rw [abs_mul]; exact mul_le_mul_of_nonneg_left hv (abs_nonneg _)
  have a' := (abs_le.mp a).1
  have b' := (abs_le.mp b).1
  linarith

theorem Rep.jac {p0 p1 p2 p3 : P2 ℝ} (h : Corners p0 p1 p2 p3) :
    Rep (Box 1) (shoelace [p0, p1, p2, p3] / 4) (fun u v => jac p0 p1 p2 p3 u v) := by
  have a := ((Rep.term (D := Box 1) (i := 0) (j := 0) (j0 p0 p1 p2 p3) (by simp [Box])).add
    (Rep.term (D := Box 1) (i := 1) (j := 0) (j1 p0 p1 p2 p3) (by simp [Box]))).add
    (Rep.term (D := Box 1) (i := 0) (j := 1) (j2 p0 p1 p2 p3) (by simp [Box]))
  have k := corners_j h
  have n : 0 ≤ j0 p0 p1 p2 p3 := (add_nonneg (abs_nonneg _) (abs_nonneg _)).trans k
  have c : |j0 p0 p1 p2 p3| + |j1 p0 p1 p2 p3| + |j2 p0 p1 p2 p3| ≤ shoelace [p0, p1, p2, p3] / 4 := by
    have e := j0_area p0 p1 p2 p3
    rw [abs_of_nonneg n]; linarith
  have b := a.mono (fun _ _ h => h) c
  simp only [jac_lin]
  simpa using b

theorem square_nodes {r : List (ℝ × ℝ)} (h : ∀ e ∈ r, |e.1| ≤ 1) :
    ∀ q ∈ square r, |q.1.1| ≤ 1 ∧ |q.1.2| ≤ 1 := by
  intro q hq
  simp only [square, List.mem_flatMap, List.mem_map] at hq
  obtain ⟨a, ha, b, hb, rfl⟩ := hq
  exact ⟨h b hb, h a ha⟩

/-- The tensorised rule in terms of the reference rule. -/
theorem tensor_quadSum (r : List ((ℝ × ℝ) × ℝ)) (hn : ∀ q ∈ r, |q.1.1| ≤ 1 ∧ |q.1.2| ≤ 1) {p0 p1 p2 p3 : P2 ℝ}
    (h : Corners p0 p1 p2 p3) (g : P2 ℝ → ℝ) :
    quadSum (r.map fun q => (bilMap p0 p1 p2 p3 q.1, q.2 * |Quad.jac p0 p1 p2 p3 q.1.1 q.1.2|)) g =
    quadSum r (fun q => g (bilMap p0 p1 p2 p3 q) * Quad.jac p0 p1 p2 p3 q.1 q.2) := by
  induction r with
  | nil => simp [quadSum]
  | cons q r ih =>
    have k := hn q (by simp)
    rw [List.map_cons, quadSum_cons, ih (fun s hs => hn s (by simp [hs])), quadSum_cons,
      abs_of_nonneg (jac_nonneg h k.1 k.2)]
    ring

theorem quad_green (f : Poly2) (z p0 p1 p2 p3 : P2 ℝ) :
    polyInt f z [p0, p1, p2, p3] = sq (fun u v =>
      f.eval ((bilMap p0 p1 p2 p3 (u, v)).x - z.x) ((bilMap p0 p1 p2 p3 (u, v)).y - z.y) *
        Quad.jac p0 p1 p2 p3 u v) := by
  obtain ⟨Fy, hC⟩ := C1.poly f z.x z.y
  have g := green hC p0 p1 p2 p3
  unfold sq
  rw [g]
  simp [polyInt, boundaryInt, sides]; ring

theorem bil_sub (c0 c1 c2 c3 z u v : ℝ) :
    Quad.bil c0 c1 c2 c3 u v - z = Quad.bil (c0 - z) (c1 - z) (c2 - z) (c3 - z) u v := by
  unfold Quad.bil; ring

theorem corners_of_convex {p0 p1 p2 p3 : P2 ℝ} (h : ConvexCCW [p0, p1, p2, p3]) : Corners p0 p1 p2 p3 := by
  have hs : sides [p0, p1, p2, p3] = [(p0, p1), (p1, p2), (p2, p3), (p3, p0)] := rfl
  refine ⟨?_, ?_, ?_, ?_⟩
  · exact h (p3, p0) (by simp [hs]) p1 (by simp)
  · exact h (p0, p1) (by simp [hs]) p2 (by simp)
  · exact h (p1, p2) (by simp [hs]) p3 (by simp)
  · exact h (p2, p3) (by simp [hs]) p0 (by simp)

theorem stored_nodes {s t : List (ℝ × ℝ)} (h : Stored s t) : ∀ e ∈ t, |e.1| ≤ 1 := by
  unfold Stored at h
  induction h with
  | nil => simp
  | cons hxy _ ih =>
    intro e he
    rcases List.mem_cons.mp he with rfl | he
    · exact hxy.2.2
    · exact ih e he

/-- Error of the tensorised rule when the transformed integrand is integrated by the rule. -/
theorem tensor_error {r : List (ℝ × ℝ)} {n : ℕ}
    (hm : ∀ k ≤ n, |quadSum r (fun x => x ^ k) - mom k| ≤ 2 / 10 ^ 14) (hn : ∀ e ∈ r, |e.1| ≤ 1)
    {p0 p1 p2 p3 z : P2 ℝ} (h : Corners p0 p1 p2 p3) (f : Poly2) {C : ℝ}
    (hr : Rep (Box n) C (fun u v =>
      f.eval ((bilMap p0 p1 p2 p3 (u, v)).x - z.x) ((bilMap p0 p1 p2 p3 (u, v)).y - z.y) *
        Quad.jac p0 p1 p2 p3 u v)) :
    |quadSum ((square r).map fun q => (bilMap p0 p1 p2 p3 q.1, q.2 * |Quad.jac p0 p1 p2 p3 q.1.1 q.1.2|))
      (fun p => f.eval (p.x - z.x) (p.y - z.y)) - polyInt f z [p0, p1, p2, p3]| ≤ 1 / 10 ^ 13 * C := by
  rw [tensor_quadSum _ (square_nodes hn) h, quad_green]
  exact square_bound hm hr

theorem rep_quad {p0 p1 p2 p3 z : P2 ℝ} (h : Corners p0 p1 p2 p3) {ρ : ℝ}
    (hx : bilSum (p0.x - z.x) (p1.x - z.x) (p2.x - z.x) (p3.x - z.x) ≤ ρ)
    (hy : bilSum (p0.y - z.y) (p1.y - z.y) (p2.y - z.y) (p3.y - z.y) ≤ ρ) (f : Poly2) {d : ℕ} (hf : f.DegLE d) :
    Rep (Box (d + 1)) (f.size ρ * (shoelace [p0, p1, p2, p3] / 4)) (fun u v =>
      f.eval ((bilMap p0 p1 p2 p3 (u, v)).x - z.x) ((bilMap p0 p1 p2 p3 (u, v)).y - z.y) *
        Quad.jac p0 p1 p2 p3 u v) := by
  simp only [bilMap, bil_sub]
  exact (Rep.comp_box (Rep.bil hx) (Rep.bil hy) f hf).mul (Rep.jac h)
    (fun i j k l h1 h2 => ⟨by have := h1.1; have := h2.1; omega, by have := h1.2; have := h2.2; omega⟩)

theorem rep_para {p0 p1 p2 p3 z : P2 ℝ} (h : Corners p0 p1 p2 p3) (hpx : p0.x + p2.x = p1.x + p3.x)
    (hpy : p0.y + p2.y = p1.y + p3.y) {ρ : ℝ}
    (hx : bilSum (p0.x - z.x) (p1.x - z.x) (p2.x - z.x) (p3.x - z.x) ≤ ρ)
    (hy : bilSum (p0.y - z.y) (p1.y - z.y) (p2.y - z.y) (p3.y - z.y) ≤ ρ) (f : Poly2) {d : ℕ} (hf : f.DegLE d) :
    Rep (Box d) (f.size ρ * (shoelace [p0, p1, p2, p3] / 4)) (fun u v =>
      f.eval ((bilMap p0 p1 p2 p3 (u, v)).x - z.x) ((bilMap p0 p1 p2 p3 (u, v)).y - z.y) *
        Quad.jac p0 p1 p2 p3 u v) := by
  simp only [bilMap, bil_sub]
  have aff : ∀ {c0 c1 c2 c3 : ℝ}, c0 + c2 = c1 + c3 → bilSum c0 c1 c2 c3 ≤ ρ →
      Rep (Tot 1) ρ (fun u v => Quad.bil c0 c1 c2 c3 u v) := by
    intro c0 c1 c2 c3 e hs
    have e0 : bxy c0 c1 c2 c3 = 0 := by unfold bxy; linarith
    simp only [bil_eq, e0, zero_mul, add_zero]
    refine Rep.affine ?_
    have := abs_nonneg ((c0 - c1 + c2 - c3) / 4)
    unfold bilSum at hs
    unfold b0 bx by'
    linarith
  have rf := (Rep.comp_tot (aff (by linarith) hx) (aff (by linarith) hy) f hf).mono (D' := Box d)
    (fun i j h => ⟨by simp only [Tot] at h; omega, by simp only [Tot] at h; omega⟩) le_rfl
  have ex : bxy p0.x p1.x p2.x p3.x = 0 := by unfold bxy; linarith
  have ey : bxy p0.y p1.y p2.y p3.y = 0 := by unfold bxy; linarith
  have k1 : j1 p0 p1 p2 p3 = 0 := by unfold j1; rw [ex, ey]; ring
  have k2 : j2 p0 p1 p2 p3 = 0 := by unfold j2; rw [ex, ey]; ring
  have n : 0 ≤ j0 p0 p1 p2 p3 := (add_nonneg (abs_nonneg _) (abs_nonneg _)).trans (corners_j h)
  have rj : Rep (Box 0) (shoelace [p0, p1, p2, p3] / 4) (fun u v => Quad.jac p0 p1 p2 p3 u v) := by
    have a := (Rep.term (D := Box 0) (i := 0) (j := 0) (j0 p0 p1 p2 p3) (by simp [Box])).mono
      (C' := shoelace [p0, p1, p2, p3] / 4) (fun _ _ h => h)
      (by rw [abs_of_nonneg n]; have := j0_area p0 p1 p2 p3; linarith)
    simp only [jac_lin, k1, k2]
    simpa using a
  exact rf.mul rj
    (fun i j k l h1 h2 => ⟨by have := h1.1; have := h2.1; omega, by have := h1.2; have := h2.2; omega⟩)

/-- Polygons cut from a point: the boundary integrals add up. -/
theorem boundary_fan (F : ℝ → ℝ → ℝ) (pts : List (P2 ℝ)) (c : P2 ℝ) :
    ((sides pts).map fun e => boundaryInt F [c, e.1, e.2]).sum = boundaryInt F pts := by
  have h : ∀ e : P2 ℝ × P2 ℝ, boundaryInt F [c, e.1, e.2] =
      edgeInt F e.1 e.2 + (edgeInt F c e.1 - edgeInt F c e.2) := by
    intro e
    simp [boundaryInt, sides]
    rw [edgeInt_swap F c e.2]; ring
  simp only [h]
  rw [Polygon.sum_add_map]
  have t : ((sides pts).map fun e => edgeInt F c e.1 - edgeInt F c e.2).sum = 0 := by
    rw [Polygon.sum_sub_map]
    have a : ((sides pts).map fun e => edgeInt F c e.1) = pts.map (edgeInt F c) := by
      conv_rhs => rw [← Polygon.sides_fst pts]
      rw [List.map_map]; rfl
    have b : ((sides pts).map fun e => edgeInt F c e.2) = (pts.rotate 1).map (edgeInt F c) := by
      rw [← Polygon.sides_snd pts, List.map_map]; rfl
    rw [a, b, ((List.rotate_perm pts 1).map _).sum_eq, sub_self]
  rw [t, add_zero]; rfl

theorem quadSum_flatten {X : Type} (ls : List (List (X × ℝ))) (f : X → ℝ) :
    quadSum ls.flatten f = (ls.map fun l => quadSum l f).sum := by
  induction ls with
  | nil => simp [quadSum]
  | cons l ls ih => rw [List.flatten_cons, quadSum_append, ih, List.map_cons, List.sum_cons]

theorem concat_ok {X A : Type} (l : List A) (g : A → List (X × ℝ)) :
    Quad.concat (l.map fun a => Outcome.ok (g a)) = .ok (l.map g).flatten := by
  induction l with
  | nil => rfl
  | cons a l ih => simp only [List.map_cons, Quad.concat, ih, Outcome.bind_ok, List.flatten_cons]

theorem sum_abs_bound {A : Type} (l : List A) (q i b : A → ℝ) (h : ∀ a ∈ l, |q a - i a| ≤ b a) :
    |(l.map q).sum - (l.map i).sum| ≤ (l.map b).sum := by
  induction l with
  | nil => simp
  | cons a l ih =>
    simp only [List.map_cons, List.sum_cons]
    have h1 := h a (by simp)
    have h2 := ih fun x hx => h x (by simp [hx])
    have e : ∀ x y z w : ℝ, x + y - (z + w) = (x - z) + (y - w) := by intros; ring
    rw [e]
    exact (abs_add_le _ _).trans (add_le_add h1 h2)

end Verif.PlaneIntegral
