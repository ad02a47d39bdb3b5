import Verif.Lemmas.Contact
import Mathlib.Algebra.Order.BigOperators.Ring.Finset
import Mathlib.Analysis.Calculus.Deriv.Add
import Mathlib.Analysis.Calculus.Deriv.Mul
import Mathlib.Analysis.Calculus.Deriv.Inv
import Mathlib.Analysis.SpecialFunctions.Sqrt
import Mathlib.Tactic.Positivity
/-!
Contact and friction: projections on balls, contact laws, derivatives.
-/
namespace Verif.Contact
open Tensor Rigidity Finset Spec.Contact

variable {D : Nat}

theorem dot_self_nonneg (x : Vec D) : 0 ≤ dot x x := sum_nonneg fun _ _ => mul_self_nonneg _

theorem dot_comm (x y : Vec D) : dot x y = dot y x := sum_congr rfl fun _ _ => mul_comm _ _

theorem norm_nonneg' (x : Vec D) : 0 ≤ norm x := Real.sqrt_nonneg _

theorem norm_sq (x : Vec D) : norm x * norm x = dot x x := Real.mul_self_sqrt (dot_self_nonneg x)

theorem cauchy (x y : Vec D) : dot x y * dot x y ≤ dot x x * dot y y := by
  have h := sum_mul_sq_le_sq_mul_sq univ x y
  unfold dot
  simp only [pow_two] at h
  exact h

theorem norm_le_iff {x : Vec D} {a : ℝ} (ha : 0 ≤ a) : norm x ≤ a ↔ dot x x ≤ a ^ 2 := Real.sqrt_le_left ha

theorem dot_smul (c : ℝ) (x y : Vec D) : dot (fun k => c * x k) y = c * dot x y := by
  unfold dot; rw [mul_sum]; exact sum_congr rfl fun k _ => by ring

theorem dot_sub (x y z : Vec D) : dot (fun k => x k - y k) z = dot x z - dot y z := by
  unfold dot; rw [← sum_sub_distrib]; exact sum_congr rfl fun k _ => by ring

theorem dot_add_left (x y z : Vec D) : dot (fun k => x k + y k) z = dot x z + dot y z := by
  unfold dot; rw [← sum_add_distrib]; exact sum_congr rfl fun k _ => by ring

theorem proj_out {x : Vec D} {a : ℝ} (h : ¬ norm x ≤ a) : proj x a = fun k => a / norm x * x k := by
  unfold proj; rw [if_neg h]; funext k; ring

theorem proj_ball (x : Vec D) {a : ℝ} (ha : 0 ≤ a) : dot (proj x a) (proj x a) ≤ a ^ 2 := by
  by_cases h : norm x ≤ a
  · unfold proj; rw [if_pos h]; exact (norm_le_iff ha).1 h
  · have hp : 0 < norm x := lt_of_le_of_lt ha (not_le.1 h)
    rw [proj_out h, dot_smul, dot_comm, dot_smul, ← norm_sq]
    field_simp
    exact le_refl _

theorem proj_var (x y : Vec D) {a : ℝ} (ha : 0 ≤ a) (hy : dot y y ≤ a ^ 2) :
    dot (fun k => x k - proj x a k) (fun k => y k - proj x a k) ≤ 0 := by
  by_cases h : norm x ≤ a
  · unfold proj; rw [if_pos h]; simp [dot]
  · have hp : 0 < norm x := lt_of_le_of_lt ha (not_le.1 h)
    have hxy : dot x y ≤ norm x * a := by
      by_contra hc
      rw [not_le] at hc
      have h0 : 0 ≤ norm x * a := mul_nonneg hp.le ha
      have h1 := cauchy x y
      have h2 : (norm x * a) * (norm x * a) < dot x y * dot x y := mul_self_lt_mul_self h0 hc
      rw [← norm_sq] at h1
      nlinarith [mul_nonneg hp.le hp.le, mul_le_mul_of_nonneg_left hy (mul_nonneg hp.le hp.le)]
    rw [proj_out h]
    have e : (fun k => x k - a / norm x * x k) = fun k => (1 - a / norm x) * x k := by funext k; ring
    rw [e, dot_smul, dot_comm, dot_sub, dot_smul, ← norm_sq, dot_comm y x]
    have e2 : dot x y - a / norm x * (norm x * norm x) = dot x y - norm x * a := by field_simp
    rw [e2]
    have h3 : a / norm x ≤ 1 := (div_le_one hp).2 (le_of_lt (not_le.1 h))
    exact mul_nonpos_of_nonneg_of_nonpos (by linarith) (by linarith)

theorem proj_nearest (x y : Vec D) {a : ℝ} (ha : 0 ≤ a) (hy : dot y y ≤ a ^ 2) :
    dot (fun k => x k - proj x a k) (fun k => x k - proj x a k) ≤ dot (fun k => x k - y k) (fun k => x k - y k) := by
  have h := proj_var x y ha hy
  set p := proj x a
  have e : dot (fun k => x k - y k) (fun k => x k - y k) = dot (fun k => x k - p k) (fun k => x k - p k) -
      2 * dot (fun k => x k - p k) (fun k => y k - p k) + dot (fun k => y k - p k) (fun k => y k - p k) := by
    unfold dot
    rw [mul_sum, ← sum_sub_distrib, ← sum_add_distrib]
    exact sum_congr rfl fun k _ => by ring
  have := dot_self_nonneg fun k => y k - p k
  linarith

theorem dProj_symm (x : Vec D) (a : ℝ) (i j : Fin D) : dProj x a i j = dProj x a j i := by
  unfold dProj
  split
  · simp only [eq_comm]
  · simp only [eq_comm (a := i), mul_comm (x i)]

/-- `v . D w` for the derivative of the projection. -/
theorem dProj_form (x v w : Vec D) (a : ℝ) : ∑ k, v k * ∑ l, dProj x a k l * w l =
    if norm x ≤ a then dot v w else a / norm x * (dot v w - dot x v * dot x w / (norm x * norm x)) := by
  unfold dProj
  split
  · simp [dot]
  · have e : ∀ k, ∑ l, a / norm x * ((if k = l then 1 else 0) - x k * x l / (norm x * norm x)) * w l =
        a / norm x * (w k - x k * dot x w / (norm x * norm x)) := by
      intro k
      have : ∀ l, a / norm x * ((if k = l then 1 else 0) - x k * x l / (norm x * norm x)) * w l =
          a / norm x * ((if k = l then w l else 0) - x k / (norm x * norm x) * (x l * w l)) := by
        intro l; split <;> ring
      rw [sum_congr rfl fun l _ => this l, ← mul_sum, sum_sub_distrib, sum_ite_eq, if_pos (mem_univ _), ← mul_sum]
      unfold dot
      ring
    rw [sum_congr rfl fun k _ => by rw [e k]]
    have e2 : ∀ k, v k * (a / norm x * (w k - x k * dot x w / (norm x * norm x))) =
        a / norm x * (v k * w k - dot x w / (norm x * norm x) * (x k * v k)) := fun k => by ring
    rw [sum_congr rfl fun k _ => e2 k, ← mul_sum, sum_sub_distrib, ← mul_sum]
    unfold dot
    ring

theorem dProj_bounds (x v : Vec D) {a : ℝ} (ha : 0 ≤ a) :
    0 ≤ ∑ k, v k * ∑ l, dProj x a k l * v l ∧ ∑ k, v k * ∑ l, dProj x a k l * v l ≤ dot v v := by
  rw [dProj_form]
  have hv := dot_self_nonneg v
  split
  · exact ⟨hv, le_refl _⟩
  · rename_i h
    have hp : 0 < norm x := lt_of_le_of_lt ha (not_le.1 h)
    have h1 : 0 ≤ a / norm x := div_nonneg ha hp.le
    have h2 : a / norm x ≤ 1 := (div_le_one hp).2 (le_of_lt (not_le.1 h))
    have h3 : dot x v * dot x v / (norm x * norm x) ≤ dot v v := by
      rw [div_le_iff₀ (mul_pos hp hp), norm_sq, mul_comm (dot v v)]; exact cauchy x v
    have h4 : 0 ≤ dot x v * dot x v / (norm x * norm x) := div_nonneg (mul_self_nonneg _) (mul_pos hp hp).le
    refine ⟨mul_nonneg h1 (by linarith), ?_⟩
    calc a / norm x * (dot v v - dot x v * dot x v / (norm x * norm x)) ≤
        1 * (dot v v - dot x v * dot x v / (norm x * norm x)) := mul_le_mul_of_nonneg_right h2 (by linarith)
      _ ≤ dot v v := by linarith

theorem dot_line (x v : Vec D) (t : ℝ) : dot (fun k => x k + t * v k) (fun k => x k + t * v k) =
    dot x x + t * (2 * dot x v) + t * t * dot v v := by
  unfold dot
  rw [mul_sum, mul_sum, mul_sum, ← sum_add_distrib, ← sum_add_distrib]
  exact sum_congr rfl fun k _ => by ring

theorem dot_line_deriv (x v : Vec D) :
    HasDerivAt (fun t : ℝ => dot (fun k => x k + t * v k) (fun k => x k + t * v k)) (2 * dot x v) 0 := by
  simp only [dot_line]
  have h := (((hasDerivAt_id (0 : ℝ)).mul_const (2 * dot x v)).const_add (dot x x)).add
    (((hasDerivAt_id (0 : ℝ)).mul (hasDerivAt_id (0 : ℝ))).mul_const (dot v v))
  refine HasDerivAt.congr_deriv (f := fun t : ℝ => dot x x + t * (2 * dot x v) + t * t * dot v v) h ?_
  simp

theorem norm_line_cont (x v : Vec D) : ContinuousAt (fun t : ℝ => norm fun k => x k + t * v k) 0 :=
  (dot_line_deriv x v).continuousAt.sqrt

/-- `make_d_proj_alpha` is the derivative of `make_proj_alpha` away from the sphere. -/
theorem proj_deriv (x v : Vec D) {a : ℝ} (ha : 0 ≤ a) (hne : norm x ≠ a) (i : Fin D) :
    HasDerivAt (fun t : ℝ => proj (fun k => x k + t * v k) a i) (∑ j, dProj x a i j * v j) 0 := by
  have hc := norm_line_cont x v
  have hx0 : (norm fun k => x k + (0 : ℝ) * v k) = norm x := by simp
  have hlin : HasDerivAt (fun t : ℝ => x i + t * v i) (v i) 0 := by
    simpa using ((hasDerivAt_id (0 : ℝ)).mul_const (v i)).const_add (x i)
  have hval : ∑ j, dProj x a i j * v j = if norm x ≤ a then v i else
      a / norm x * (v i - x i * dot x v / (norm x * norm x)) := by
    have := dProj_form x (fun k => if i = k then 1 else 0) v a
    simp only [ite_mul, one_mul, zero_mul, sum_ite_eq, mem_univ, if_true] at this
    rw [this]
    simp [dot]
  rw [hval]
  rcases lt_or_gt_of_ne hne with h | h
  · rw [if_pos h.le]
    refine hlin.congr_of_eventuallyEq ?_
    have := hc.eventually_lt_const (u := a) (by show _ < _; simpa using h)
    filter_upwards [this] with t ht
    unfold proj
    rw [if_pos ht.le]
  · rw [if_neg (not_le.2 h)]
    have hp : 0 < norm x := lt_of_le_of_lt ha h
    have hs : HasDerivAt (fun t : ℝ => norm fun k => x k + t * v k) (2 * dot x v / (2 * norm x)) 0 := by
      have hd0 : dot (fun k => x k + (0 : ℝ) * v k) (fun k => x k + (0 : ℝ) * v k) = dot x x := by simp
      have h0 : dot (fun k => x k + (0 : ℝ) * v k) (fun k => x k + (0 : ℝ) * v k) ≠ 0 := by
        rw [hd0, ← norm_sq]; exact (mul_pos hp hp).ne'
      have := (dot_line_deriv x v).sqrt h0
      rw [hd0] at this
      exact this
    have hq := (hlin.const_mul a).div hs (by rw [hx0]; exact hp.ne')
    have hq' : HasDerivAt (fun t : ℝ => a * (x i + t * v i) / norm fun k => x k + t * v k)
        (a / norm x * (v i - x i * dot x v / (norm x * norm x))) 0 := by
      refine HasDerivAt.congr_deriv (f := fun t : ℝ => a * (x i + t * v i) / norm fun k => x k + t * v k) hq ?_
      rw [hx0]
      simp only [zero_mul, add_zero]
      field_simp
    refine hq'.congr_of_eventuallyEq ?_
    have := hc.eventually_const_lt (u := a) (by show _ < _; simpa using h)
    filter_upwards [this] with t ht
    unfold proj
    rw [if_neg (not_le.2 ht)]

theorem signorini_iff {sigma g c : ℝ} (hc : 0 < c) : min 0 (sigma + c * g) = sigma ↔ Signorini sigma g := by
  unfold Signorini
  constructor
  · intro h
    rcases le_total 0 (sigma + c * g) with h1 | h1
    · rw [min_eq_left h1] at h
      subst h
      refine ⟨?_, le_refl _, by simp⟩
      rw [zero_add] at h1
      exact nonneg_of_mul_nonneg_right h1 hc
    · rw [min_eq_right h1] at h
      have : c * g = 0 := by linarith
      have hg : g = 0 := (mul_eq_zero.1 this).resolve_left hc.ne'
      subst hg
      refine ⟨le_refl _, by simpa using h1, by simp⟩
  · rintro ⟨h1, h2, h3⟩
    rcases mul_eq_zero.1 h3 with h | h
    · subst h; rw [zero_add]; exact min_eq_left (mul_nonneg hc.le h1)
    · subst h; simpa using h2

theorem tresca_proj {s c : ℝ} {sigma u : Vec D} (hs : 0 ≤ s) (hc : 0 < c) (h : Tresca s sigma u) :
    proj (fun k => sigma k - c * u k) s = sigma := by
  obtain ⟨h1, h2, h3⟩ := h
  rcases lt_or_eq_of_le h1 with h | h
  · have hu := h2 h
    have e : (fun k => sigma k - c * u k) = sigma := by funext k; rw [hu k]; ring
    rw [e]
    unfold proj
    rw [if_pos ((norm_le_iff hs).2 h1)]
  · obtain ⟨k, hk, hu⟩ := h3 h
    have e : (fun i => sigma i - c * u i) = fun i => (1 + c * k) * sigma i := by funext i; rw [hu i]; ring
    have hn : norm (fun i => (1 + c * k) * sigma i) = (1 + c * k) * s := by
      unfold norm
      rw [dot_smul, dot_comm, dot_smul, show dot sigma sigma = s ^ 2 from h]
      rw [show (1 + c * k) * ((1 + c * k) * s ^ 2) = ((1 + c * k) * s) ^ 2 by ring]
      exact Real.sqrt_sq (mul_nonneg (by nlinarith [mul_nonneg hc.le hk]) hs)
    rw [e]
    unfold proj
    rw [hn]
    have hck := mul_nonneg hc.le hk
    rcases eq_or_lt_of_le hs with hs0 | hs0
    · subst hs0
      have hz : ∀ i, sigma i = 0 := by
        have hd : ∑ i, sigma i * sigma i = 0 := by rw [h]; ring
        intro i
        have := (sum_eq_zero_iff_of_nonneg fun i _ => mul_self_nonneg (sigma i)).1 hd i (mem_univ _)
        exact mul_self_eq_zero.1 this
      funext i
      simp [hz]
    · split
      · rename_i hle
        have : c * k = 0 := by nlinarith
        funext i
        rw [this]; ring
      · funext i
        have : (1 + c * k) ≠ 0 := by positivity
        field_simp

theorem proj_tresca {s c : ℝ} {sigma u : Vec D} (hs : 0 < s) (hc : 0 < c)
    (h : proj (fun k => sigma k - c * u k) s = sigma) : Tresca s sigma u := by
  have hb := proj_ball (fun k => sigma k - c * u k) hs.le
  rw [h] at hb
  by_cases hx : norm (fun k => sigma k - c * u k) ≤ s
  · unfold proj at h
    rw [if_pos hx] at h
    have hu : ∀ k, u k = 0 := by
      intro k
      have := congrFun h k
      have h2 : c * u k = 0 := by linarith
      exact (mul_eq_zero.1 h2).resolve_left hc.ne'
    exact ⟨hb, fun _ => hu, fun _ => ⟨0, le_refl _, fun k => by rw [hu k]; ring⟩⟩
  · have hlt := not_le.1 hx
    have hp := hs.trans hlt
    rw [proj_out hx] at h
    set N := norm fun k => sigma k - c * u k with hN
    have hx' : ∀ k, sigma k - c * u k = N / s * sigma k := by
      intro k
      have := congrFun h k
      field_simp at this ⊢
      linarith
    have hd : ∑ k, sigma k * sigma k = s ^ 2 := by
      have e : dot (fun k => sigma k - c * u k) (fun k => sigma k - c * u k) = N / s * (N / s * dot sigma sigma) := by
        rw [show (fun k => sigma k - c * u k) = fun k => N / s * sigma k from funext hx', dot_smul, dot_comm, dot_smul]
      rw [← norm_sq, ← hN] at e
      have : dot sigma sigma = s ^ 2 := by
        field_simp at e
        linarith
      exact this
    refine ⟨hd.le, fun h => absurd hd h.ne, fun _ => ⟨(N / s - 1) / c, ?_, fun k => ?_⟩⟩
    · refine div_nonneg ?_ hc.le
      have : 1 ≤ N / s := (one_le_div hs).2 hlt.le
      linarith
    · have := hx' k
      field_simp at this ⊢
      linarith

end Verif.Contact
