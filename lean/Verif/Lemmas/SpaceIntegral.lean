import Verif.Spec.SpaceIntegral
import Verif.Lemmas.TriRules
/-!
Polynomials of three variables and their integrals over the reference tetrahedron.
-/
namespace Verif.SpaceIntegral
open Verif.Spec MeasureTheory

theorem eval3_nil (x y z : ℝ) : Poly3.eval [] x y z = 0 := rfl
theorem eval3_cons (t : ℝ × ℕ × ℕ × ℕ) (f : Poly3) (x y z : ℝ) : Poly3.eval (t :: f) x y z =
    t.1 * (x ^ t.2.1 * y ^ t.2.2.1 * z ^ t.2.2.2) + Poly3.eval f x y z := by simp [Poly3.eval]
theorem eval3_append (f g : Poly3) (x y z : ℝ) :
    Poly3.eval (f ++ g) x y z = Poly3.eval f x y z + Poly3.eval g x y z := by simp [Poly3.eval]

/-- A polynomial function of degree at most `d`. -/
def IsPoly (d : ℕ) (h : ℝ → ℝ → ℝ → ℝ) : Prop := ∃ l : Poly3, l.DegLE d ∧ ∀ u v w, h u v w = l.eval u v w

theorem IsPoly.mono {d e : ℕ} {h : ℝ → ℝ → ℝ → ℝ} (H : IsPoly d h) (le : d ≤ e) : IsPoly e h := by
  obtain ⟨l, h1, h2⟩ := H
  exact ⟨l, fun t ht => (h1 t ht).trans le, h2⟩

theorem IsPoly.const (c : ℝ) : IsPoly 0 (fun _ _ _ => c) :=
  ⟨[(c, 0, 0, 0)], by intro t ht; simp at ht; simp [ht], by intro u v w; simp [Poly3.eval]⟩

theorem IsPoly.add {d : ℕ} {h k : ℝ → ℝ → ℝ → ℝ} (H : IsPoly d h) (K : IsPoly d k) :
    IsPoly d (fun u v w => h u v w + k u v w) := by
  obtain ⟨l, h1, h2⟩ := H
  obtain ⟨m, k1, k2⟩ := K
  refine ⟨l ++ m, ?_, fun u v w => by dsimp only; rw [eval3_append, h2, k2]⟩
  intro t ht
  rcases List.mem_append.1 ht with ht | ht
  exacts [h1 t ht, k1 t ht]

theorem IsPoly.term {d : ℕ} {k : ℝ → ℝ → ℝ → ℝ} (K : IsPoly d k) (c : ℝ) (i j p : ℕ) :
    IsPoly (i + j + p + d) (fun u v w => c * (u ^ i * v ^ j * w ^ p) * k u v w) := by
  obtain ⟨m, k1, k2⟩ := K
  refine ⟨m.map fun t => (c * t.1, i + t.2.1, j + t.2.2.1, p + t.2.2.2), ?_, ?_⟩
  · intro t ht
    obtain ⟨s, hs, rfl⟩ := List.mem_map.1 ht
    have := k1 s hs
    simp only
    omega
  · intro u v w
    dsimp only
    rw [k2]
    clear k1 k2
    induction m with
    | nil => simp [eval3_nil]
    | cons t m ih =>
      rw [List.map_cons, eval3_cons, eval3_cons, ← ih]
      simp only [pow_add]
      ring

theorem IsPoly.mul {d e : ℕ} {h k : ℝ → ℝ → ℝ → ℝ} (H : IsPoly d h) (K : IsPoly e k) :
    IsPoly (d + e) (fun u v w => h u v w * k u v w) := by
  obtain ⟨l, h1, h2⟩ := H
  simp only [h2]
  clear h2
  induction l with
  | nil =>
    simp only [eval3_nil, zero_mul]
    exact (IsPoly.const 0).mono (Nat.zero_le _)
  | cons t l ih =>
    simp only [eval3_cons, add_mul]
    refine IsPoly.add ?_ (ih fun s hs => h1 s (List.mem_cons_of_mem _ hs))
    refine (K.term t.1 t.2.1 t.2.2.1 t.2.2.2).mono ?_
    have := h1 t (List.mem_cons_self)
    omega

theorem IsPoly.pow {d : ℕ} {h : ℝ → ℝ → ℝ → ℝ} (H : IsPoly d h) (n : ℕ) :
    IsPoly (n * d) (fun u v w => h u v w ^ n) := by
  induction n with
  | zero => simpa using IsPoly.const 1
  | succ n ih =>
    simp only [pow_succ]
    exact (ih.mul H).mono (by rw [Nat.succ_mul])

theorem IsPoly.comp {h₁ h₂ h₃ : ℝ → ℝ → ℝ → ℝ} (H₁ : IsPoly 1 h₁) (H₂ : IsPoly 1 h₂) (H₃ : IsPoly 1 h₃)
    {d : ℕ} (f : Poly3) (hf : f.DegLE d) :
    IsPoly d (fun u v w => f.eval (h₁ u v w) (h₂ u v w) (h₃ u v w)) := by
  induction f with
  | nil =>
    simp only [eval3_nil]
    exact (IsPoly.const 0).mono (Nat.zero_le _)
  | cons t f ih =>
    simp only [eval3_cons]
    refine IsPoly.add ?_ (ih fun s hs => hf s (List.mem_cons_of_mem _ hs))
    have := hf t (List.mem_cons_self)
    exact ((IsPoly.const t.1).mul (((H₁.pow t.2.1).mul (H₂.pow t.2.2.1)).mul (H₃.pow t.2.2.2))).mono (by omega)

theorem IsPoly.affine (c a b e : ℝ) : IsPoly 1 (fun u v w => c + u * a + v * b + w * e) :=
  ⟨[(c, 0, 0, 0), (a, 1, 0, 0), (b, 0, 1, 0), (e, 0, 0, 1)], by
    intro t ht; simp at ht; rcases ht with rfl | rfl | rfl | rfl <;> simp, by
    intro u v w; simp [Poly3.eval]; ring⟩

theorem beta_scaled (c : ℝ) (j m : ℕ) : ∫ v in (0 : ℝ)..c, v ^ j * (c - v) ^ m =
    c ^ (j + m + 1) * ((j.factorial : ℝ) * m.factorial / (j + m + 1).factorial) := by
  have h := intervalIntegral.mul_integral_comp_mul_left (a := 0) (b := 1) (f := fun v => v ^ j * (c - v) ^ m) (c := c)
  rw [mul_zero, mul_one] at h
  rw [← h, ← PlaneIntegral.beta m j]
  have e : ∀ x : ℝ, (c * x) ^ j * (c - c * x) ^ m = c ^ (j + m) * (x ^ j * (1 - x) ^ m) := by
    intro x
    rw [show c - c * x = c * (1 - x) by ring, mul_pow, mul_pow, pow_add]; ring
  simp only [e]
  rw [intervalIntegral.integral_const_mul, pow_succ]
  ring

/-- Moments of the reference tetrahedron. -/
theorem refTet_mono (i j k : ℕ) : refTet (fun u v w => u ^ i * v ^ j * w ^ k) =
    (i.factorial : ℝ) * j.factorial * k.factorial / (i + j + k + 3).factorial := by
  unfold refTet
  have e : ∀ u v : ℝ, ∫ w in (0 : ℝ)..(1 - u - v), u ^ i * v ^ j * w ^ k =
      u ^ i / ((k : ℝ) + 1) * (v ^ j * (1 - u - v) ^ (k + 1)) := by
    intro u v
    rw [intervalIntegral.integral_const_mul, integral_pow]
    simp
    ring
  simp only [e, intervalIntegral.integral_const_mul, beta_scaled]
  have e2 : ∀ u : ℝ, u ^ i / ((k : ℝ) + 1) * ((1 - u) ^ (j + (k + 1) + 1) *
      ((j.factorial : ℝ) * (k + 1).factorial / (j + (k + 1) + 1).factorial)) =
      ((j.factorial : ℝ) * (k + 1).factorial / (j + (k + 1) + 1).factorial / ((k : ℝ) + 1)) *
        (u ^ i * (1 - u) ^ (j + (k + 1) + 1)) := by
    intro u; ring
  simp only [e2, intervalIntegral.integral_const_mul, PlaneIntegral.beta]
  rw [show i + (j + (k + 1) + 1) + 1 = i + j + k + 3 by omega, Nat.factorial_succ k]
  have h1 : ((k : ℝ) + 1) ≠ 0 := by positivity
  have h2 : (((j + (k + 1) + 1).factorial : ℕ) : ℝ) ≠ 0 := by exact_mod_cast Nat.factorial_ne_zero _
  push_cast
  field_simp

theorem eval3_cont (l : Poly3) : Continuous fun p : ℝ × ℝ × ℝ => l.eval p.1 p.2.1 p.2.2 := by
  induction l with
  | nil => simp only [eval3_nil]; fun_prop
  | cons t l ih => simp only [eval3_cons]; exact (by fun_prop : Continuous fun p : ℝ × ℝ × ℝ =>
      t.1 * (p.1 ^ t.2.1 * p.2.1 ^ t.2.2.1 * p.2.2 ^ t.2.2.2)).add ih

theorem inner_cont (l : Poly3) :
    Continuous fun p : ℝ × ℝ => ∫ w in (0 : ℝ)..(1 - p.1 - p.2), l.eval p.1 p.2 w := by
  refine intervalIntegral.continuous_parametric_intervalIntegral_of_continuous
    (f := fun (p : ℝ × ℝ) w => l.eval p.1 p.2 w) ?_ (by fun_prop)
  exact (eval3_cont l).comp (by fun_prop : Continuous fun q : (ℝ × ℝ) × ℝ => (q.1.1, q.1.2, q.2))

theorem refTet_add (l m : Poly3) : refTet (fun u v w => l.eval u v w + m.eval u v w) =
    refTet (fun u v w => l.eval u v w) + refTet (fun u v w => m.eval u v w) := by
  unfold refTet
  have c : ∀ (l : Poly3) (u v : ℝ), Continuous fun w => l.eval u v w := fun l u v =>
    (eval3_cont l).comp (by fun_prop : Continuous fun w : ℝ => (u, v, w))
  have i1 : ∀ u v : ℝ, ∫ w in (0 : ℝ)..(1 - u - v), (l.eval u v w + m.eval u v w) =
      (∫ w in (0 : ℝ)..(1 - u - v), l.eval u v w) + ∫ w in (0 : ℝ)..(1 - u - v), m.eval u v w := fun u v =>
    intervalIntegral.integral_add ((c l u v).intervalIntegrable _ _) ((c m u v).intervalIntegrable _ _)
  simp only [i1]
  have c2 : ∀ (l : Poly3) (u : ℝ), Continuous fun v => ∫ w in (0 : ℝ)..(1 - u - v), l.eval u v w := fun l u =>
    (inner_cont l).comp (by fun_prop : Continuous fun v : ℝ => (u, v))
  have i2 : ∀ u : ℝ, ∫ v in (0 : ℝ)..(1 - u), ((∫ w in (0 : ℝ)..(1 - u - v), l.eval u v w) +
      ∫ w in (0 : ℝ)..(1 - u - v), m.eval u v w) = (∫ v in (0 : ℝ)..(1 - u), ∫ w in (0 : ℝ)..(1 - u - v), l.eval u v w) +
      ∫ v in (0 : ℝ)..(1 - u), ∫ w in (0 : ℝ)..(1 - u - v), m.eval u v w := fun u =>
    intervalIntegral.integral_add ((c2 l u).intervalIntegrable _ _) ((c2 m u).intervalIntegrable _ _)
  simp only [i2]
  have c3 : ∀ l : Poly3, Continuous fun u => ∫ v in (0 : ℝ)..(1 - u), ∫ w in (0 : ℝ)..(1 - u - v), l.eval u v w :=
    fun l => intervalIntegral.continuous_parametric_intervalIntegral_of_continuous
      (f := fun (u : ℝ) v => ∫ w in (0 : ℝ)..(1 - u - v), l.eval u v w) (inner_cont l) (by fun_prop)
  exact intervalIntegral.integral_add ((c3 l).intervalIntegrable _ _) ((c3 m).intervalIntegrable _ _)

theorem refTet_smul (c : ℝ) (h : ℝ → ℝ → ℝ → ℝ) :
    refTet (fun u v w => c * h u v w) = c * refTet h := by
  unfold refTet
  simp only [intervalIntegral.integral_const_mul]

/-- Integral of a polynomial from its terms. -/
theorem refTet_poly (l : Poly3) : refTet (fun u v w => l.eval u v w) = (l.map fun t => t.1 *
    ((t.2.1.factorial : ℝ) * t.2.2.1.factorial * t.2.2.2.factorial /
      (t.2.1 + t.2.2.1 + t.2.2.2 + 3).factorial)).sum := by
  induction l with
  | nil => simp [refTet, eval3_nil]
  | cons t l ih =>
    rw [List.map_cons, List.sum_cons, ← ih, ← refTet_mono, ← refTet_smul]
    have h := refTet_add [t] l
    simp only [eval3_cons, eval3_nil, add_zero] at h ⊢
    exact h

end Verif.SpaceIntegral
