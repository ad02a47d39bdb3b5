import Verif.Lemmas.Rational
import Verif.Model.Rational
import Mathlib.Data.Rat.Defs
import Mathlib.Algebra.Order.Field.Rat
import Mathlib.Tactic.FieldSimp
import Mathlib.Tactic.Ring
import Mathlib.Tactic.Linarith
import Mathlib.Tactic.Positivity
import Mathlib.Data.Int.GCD
/-! C13: rational arithmetic. -/
namespace Verif.Rational

/-- C13 (exactness): every program over the class either has an exact rational value, and then runs
without error to a fraction with non-zero denominator representing exactly that value, or divides by
zero, and then fails an assertion. -/
theorem c13_exact (e : Expr) :
    (∀ v, exact e = some v → ∃ q, run e = .ok q ∧ q.den ≠ 0 ∧ val q = v) ∧
    (exact e = none → (run e).IsUB) := by
  induction e with
  | int n => exact ⟨fun v h => ⟨mk1 n, rfl, by simp [mk1], by simp [exact] at h; simp [val, mk1, h]⟩,
      fun h => by simp [exact] at h⟩
  | lit n d =>
    constructor
    · intro v h
      simp only [exact] at h
      split at h
      · simp at h
      · next hd =>
        obtain ⟨r, h1, h2, h3, _⟩ := mk2_spec n d hd
        exact ⟨r, h1, h2.ne', h3.trans (Option.some.inj h)⟩
    · intro h
      simp only [exact] at h
      split at h
      · next hd => subst hd; exact mk2_zero n
      · simp at h
  | add a b iha ihb =>
    cases ha : exact a with
    | none =>
      refine ⟨fun v h => by simp [exact, ha] at h, fun _ => ?_⟩
      have := iha.2 ha
      simp only [run]
      cases hr : run a <;> simp_all [Outcome.IsUB]
    | some x =>
      obtain ⟨qa, h1, h2, h3⟩ := iha.1 x ha
      cases hb : exact b with
      | none =>
        refine ⟨fun v h => by simp [exact, ha, hb] at h, fun _ => ?_⟩
        have := ihb.2 hb
        simp only [run, h1, Outcome.bind_ok]
        cases hr : run b <;> simp_all [Outcome.IsUB]
      | some y =>
        obtain ⟨qb, g1, g2, g3⟩ := ihb.1 y hb
        refine ⟨fun v h => ?_, fun h => by simp [exact, ha, hb] at h⟩
        simp [exact, ha, hb] at h
        obtain ⟨r, e1, e2, e3⟩ := simplify_spec ⟨qa.num * qb.den + qa.den * qb.num, qa.den * qb.den⟩
          (by simp [h2, g2])
        refine ⟨r, by simp only [run, h1, g1, Outcome.bind_ok]; exact e1, e2.1.ne', ?_⟩
        rw [e3, ← h, ← h3, ← g3]
        unfold val
        have p1 : (qa.den : ℚ) ≠ 0 := by exact_mod_cast h2
        have p2 : (qb.den : ℚ) ≠ 0 := by exact_mod_cast g2
        push_cast; field_simp
  | sub a b iha ihb =>
    cases ha : exact a with
    | none =>
      refine ⟨fun v h => by simp [exact, ha] at h, fun _ => ?_⟩
      have := iha.2 ha
      simp only [run]
      cases hr : run a <;> simp_all [Outcome.IsUB]
    | some x =>
      obtain ⟨qa, h1, h2, h3⟩ := iha.1 x ha
      cases hb : exact b with
      | none =>
        refine ⟨fun v h => by simp [exact, ha, hb] at h, fun _ => ?_⟩
        have := ihb.2 hb
        simp only [run, h1, Outcome.bind_ok]
        cases hr : run b <;> simp_all [Outcome.IsUB]
      | some y =>
        obtain ⟨qb, g1, g2, g3⟩ := ihb.1 y hb
        refine ⟨fun v h => ?_, fun h => by simp [exact, ha, hb] at h⟩
        simp [exact, ha, hb] at h
        obtain ⟨r, e1, e2, e3⟩ := simplify_spec ⟨qa.num * qb.den - qa.den * qb.num, qa.den * qb.den⟩
          (by simp [h2, g2])
        refine ⟨r, by simp only [run, h1, g1, Outcome.bind_ok]; exact e1, e2.1.ne', ?_⟩
        rw [e3, ← h, ← h3, ← g3]
        unfold val
        have p1 : (qa.den : ℚ) ≠ 0 := by exact_mod_cast h2
        have p2 : (qb.den : ℚ) ≠ 0 := by exact_mod_cast g2
        push_cast; field_simp
  | neg a iha =>
    cases ha : exact a with
    | none =>
      refine ⟨fun v h => by simp [exact, ha] at h, fun _ => ?_⟩
      have := iha.2 ha
      simp only [run]
      cases hr : run a <;> simp_all [Outcome.IsUB]
    | some x =>
      obtain ⟨qa, h1, h2, h3⟩ := iha.1 x ha
      refine ⟨fun v h => ?_, fun h => by simp [exact, ha] at h⟩
      simp [exact, ha] at h
      obtain ⟨r, e1, e2, e3, _⟩ := mk2_spec (-qa.num) qa.den h2
      refine ⟨r, by simp only [run, h1, Outcome.bind_ok]; exact e1, e2.ne', ?_⟩
      rw [e3, ← h, ← h3]; unfold val; push_cast; rw [neg_div]
  | mul a b iha ihb =>
    cases ha : exact a with
    | none =>
      refine ⟨fun v h => by simp [exact, ha] at h, fun _ => ?_⟩
      have := iha.2 ha
      simp only [run]
      cases hr : run a <;> simp_all [Outcome.IsUB]
    | some x =>
      obtain ⟨qa, h1, h2, h3⟩ := iha.1 x ha
      cases hb : exact b with
      | none =>
        refine ⟨fun v h => by simp [exact, ha, hb] at h, fun _ => ?_⟩
        have := ihb.2 hb
        simp only [run, h1, Outcome.bind_ok]
        cases hr : run b <;> simp_all [Outcome.IsUB]
      | some y =>
        obtain ⟨qb, g1, g2, g3⟩ := ihb.1 y hb
        refine ⟨fun v h => ?_, fun h => by simp [exact, ha, hb] at h⟩
        simp [exact, ha, hb] at h
        obtain ⟨r, e1, e2, e3⟩ := mul_spec qa qb h2 g2
        exact ⟨r, by simp only [run, h1, g1, Outcome.bind_ok]; exact e1, e2, by rw [e3, ← h, h3, g3]⟩
  | mulI a i iha =>
    cases ha : exact a with
    | none =>
      refine ⟨fun v h => by simp [exact, ha] at h, fun _ => ?_⟩
      have := iha.2 ha
      simp only [run]
      cases hr : run a <;> simp_all [Outcome.IsUB]
    | some x =>
      obtain ⟨qa, h1, h2, h3⟩ := iha.1 x ha
      refine ⟨fun v h => ?_, fun h => by simp [exact, ha] at h⟩
      simp [exact, ha] at h
      obtain ⟨r, e1, e2, e3⟩ := simplify_spec ⟨qa.num * i, qa.den⟩ h2
      refine ⟨r, by simp only [run, h1, Outcome.bind_ok]; exact e1, e2.1.ne', ?_⟩
      rw [e3, ← h, ← h3]; unfold val; push_cast; ring
  | div a b iha ihb =>
    cases ha : exact a with
    | none =>
      refine ⟨fun v h => by simp [exact, ha] at h, fun _ => ?_⟩
      have := iha.2 ha
      simp only [run]
      cases hr : run a <;> simp_all [Outcome.IsUB]
    | some x =>
      obtain ⟨qa, h1, h2, h3⟩ := iha.1 x ha
      cases hb : exact b with
      | none =>
        refine ⟨fun v h => by simp [exact, ha, hb] at h, fun _ => ?_⟩
        have := ihb.2 hb
        simp only [run, h1, Outcome.bind_ok]
        cases hr : run b <;> simp_all [Outcome.IsUB]
      | some y =>
        obtain ⟨qb, g1, g2, g3⟩ := ihb.1 y hb
        by_cases hy : y = 0
        · refine ⟨fun v h => by simp [exact, ha, hb, hy] at h, fun _ => ?_⟩
          have hn : qb.num = 0 := (val_eq_zero qb g2).mp (g3.trans hy)
          simp only [run, h1, g1, Outcome.bind_ok, div, inv, hn]
          have := mk2_zero qb.den
          cases hr : mk2 qb.den 0 <;> simp_all [Outcome.IsUB]
        · refine ⟨fun v h => ?_, fun h => by simp [exact, ha, hb, hy] at h⟩
          simp [exact, ha, hb, hy] at h
          have hn : qb.num ≠ 0 := fun h0 => hy (by rw [← g3]; exact (val_eq_zero qb g2).mpr h0)
          obtain ⟨s, s1, s2, s3, _⟩ := mk2_spec qb.den qb.num hn
          obtain ⟨r, e1, e2, e3⟩ := mul_spec qa s h2 s2.ne'
          refine ⟨r, ?_, e2, ?_⟩
          · simp only [run, h1, g1, Outcome.bind_ok, div, inv, s1]; exact e1
          · rw [e3, s3, h3, ← h, ← g3]
            unfold val
            rw [div_eq_mul_inv x, inv_div]
  | divI a i iha =>
    cases ha : exact a with
    | none =>
      refine ⟨fun v h => by simp [exact, ha] at h, fun _ => ?_⟩
      have := iha.2 ha
      simp only [run]
      cases hr : run a <;> simp_all [Outcome.IsUB]
    | some x =>
      obtain ⟨qa, h1, h2, h3⟩ := iha.1 x ha
      by_cases hi : i = 0
      · refine ⟨fun v h => by simp [exact, ha, hi] at h, fun _ => ?_⟩
        simp [run, h1, divI, hi, Outcome.IsUB]
      · refine ⟨fun v h => ?_, fun h => by simp [exact, ha, hi] at h⟩
        simp [exact, ha, hi] at h
        refine ⟨⟨qa.num, qa.den * i⟩, by simp [run, h1, divI, h2, hi], by simp [h2, hi], ?_⟩
        rw [← h, ← h3]; unfold val; push_cast; rw [div_div]

/-- C13 (normal form): addition, subtraction and multiplication by an integer restore the normal form
(positive denominator, lowest terms) whatever the operands; construction and negation give a positive
denominator. -/
theorem c13_normalising (x y : Q) (hx : x.den ≠ 0) (hy : y.den ≠ 0) (i n d : Int) (hd : d ≠ 0) :
    (∃ r, add x y = .ok r ∧ Normal r) ∧ (∃ r, sub x y = .ok r ∧ Normal r) ∧
    (∃ r, mulI x i = .ok r ∧ Normal r) ∧ (∃ r, neg x = .ok r ∧ 0 < r.den) ∧
    (∃ r, mk2 n d = .ok r ∧ 0 < r.den) := by
  refine ⟨?_, ?_, ?_, ?_, ?_⟩
  · obtain ⟨r, h1, h2, _⟩ := simplify_spec ⟨x.num * y.den + x.den * y.num, x.den * y.den⟩ (by simp [hx, hy])
    exact ⟨r, h1, h2⟩
  · obtain ⟨r, h1, h2, _⟩ := simplify_spec ⟨x.num * y.den - x.den * y.num, x.den * y.den⟩ (by simp [hx, hy])
    exact ⟨r, h1, h2⟩
  · obtain ⟨r, h1, h2, _⟩ := simplify_spec ⟨x.num * i, x.den⟩ hx
    exact ⟨r, h1, h2⟩
  · obtain ⟨r, h1, h2, _⟩ := mk2_spec (-x.num) x.den hx
    exact ⟨r, h1, h2⟩
  · obtain ⟨r, h1, h2, _⟩ := mk2_spec n d hd
    exact ⟨r, h1, h2⟩

/-- C13 (order, what holds): `<` and `<=` agree with the rational order when the denominators have the
same sign; when the signs differ both are reversed. -/
theorem c13_order_partial (x y : Q) :
    (0 < x.den * y.den → ((lt x y = true ↔ val x < val y) ∧ (le x y = true ↔ val x ≤ val y))) ∧
    (x.den * y.den < 0 → ((lt x y = true ↔ val y < val x) ∧ (le x y = true ↔ val y ≤ val x))) := by
  have hsub : x.den ≠ 0 → y.den ≠ 0 → val y - val x =
      ((x.den * y.num - x.num * y.den : Int) : ℚ) / ((x.den * y.den : Int) : ℚ) := by
    intro h1 h2
    have p1 : (x.den : ℚ) ≠ 0 := by exact_mod_cast h1
    have p2 : (y.den : ℚ) ≠ 0 := by exact_mod_cast h2
    unfold val; push_cast; field_simp
  constructor
  · intro h
    have h1 : x.den ≠ 0 := by rintro h0; simp [h0] at h
    have h2 : y.den ≠ 0 := by rintro h0; simp [h0] at h
    have hq : (0 : ℚ) < ((x.den * y.den : Int) : ℚ) := by exact_mod_cast h
    have hs := hsub h1 h2
    constructor
    · rw [← sub_pos, hs, div_pos_iff_of_pos_right hq, Int.cast_pos]
      simp only [lt, decide_eq_true_eq]; omega
    · rw [← sub_nonneg, hs, le_div_iff₀ hq, zero_mul, Int.cast_nonneg_iff]
      simp only [le, decide_eq_true_eq]; omega
  · intro h
    have h1 : x.den ≠ 0 := by rintro h0; simp [h0] at h
    have h2 : y.den ≠ 0 := by rintro h0; simp [h0] at h
    have hq : ((x.den * y.den : Int) : ℚ) < 0 := by exact_mod_cast h
    have hs := hsub h1 h2
    constructor
    · rw [← sub_neg, hs, div_neg_iff]
      simp only [hq, hq.not_gt, and_false, or_false, and_true, Int.cast_pos]
      simp only [lt, decide_eq_true_eq]; omega
    · rw [← sub_nonpos, hs, div_nonpos_iff]
      simp only [hq.le, hq.not_ge, and_false, or_false, and_true, Int.cast_nonneg_iff]
      simp only [le, decide_eq_true_eq]; omega

example : run (.add (.lit 1 2) (.lit (-1) 3)) = .ok ⟨1, 6⟩ := by decide +kernel

/-- C13 (violation): (-1) * (1/2) has denominator -2; it is then not `< 0`, its absolute value is
itself, and dividing by a negative integer also leaves a negative denominator. -/
theorem c13_violation :
    run (.mul (.int (-1)) (.lit 1 2)) = .ok ⟨1, -2⟩ ∧ lt ⟨1, -2⟩ (mk1 0) = false ∧
    abs ⟨1, -2⟩ = .ok ⟨1, -2⟩ ∧ val ⟨1, -2⟩ < 0 ∧
    run (.divI (.int 1) (-2)) = .ok ⟨1, -2⟩ := by
  refine ⟨by decide +kernel, by decide +kernel, by decide +kernel, ?_, by decide +kernel⟩
  unfold val; norm_num

end Verif.Rational
