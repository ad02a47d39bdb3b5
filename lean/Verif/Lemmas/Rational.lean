import Verif.Model.Rational
import Mathlib.Data.Rat.Defs
import Mathlib.Algebra.Order.Field.Rat
import Mathlib.Tactic.FieldSimp
import Mathlib.Tactic.Ring
import Mathlib.Tactic.Linarith
import Mathlib.Tactic.Positivity
import Mathlib.Data.Int.GCD
/-! Lemmas for Rational.lean. -/
namespace Verif.Rational

theorem gcd_natAbs (a b : Int) : (gcd a b).natAbs = Int.gcd a b := by
  fun_induction gcd a b with
  | case1 a => simp
  | case2 a b h ih =>
    rw [ih, Int.gcd, Int.gcd, Int.natAbs_tmod, Nat.gcd_comm, ← Nat.gcd_rec, Nat.gcd_comm]

theorem gcd_dvd (a b : Int) : gcd a b ∣ a ∧ gcd a b ∣ b := by
  rw [← Int.natAbs_dvd, ← Int.natAbs_dvd (b := b), gcd_natAbs]
  exact ⟨Int.gcd_dvd_left .., Int.gcd_dvd_right ..⟩

theorem gcd_ne_zero (a b : Int) (h : a ≠ 0 ∨ b ≠ 0) : gcd a b ≠ 0 := by
  intro h0
  have := gcd_natAbs a b
  rw [h0, Int.natAbs_zero, eq_comm, Int.gcd_eq_zero_iff] at this
  omega

/-- The represented rational number. -/
def val (q : Q) : ℚ := (q.num : ℚ) / (q.den : ℚ)

/-- The exact value of a program, `none` if it divides by zero somewhere. -/
def exact : Expr → Option ℚ
  | .int n => some n
  | .lit n d => if d = 0 then none else some ((n : ℚ) / d)
  | .add a b => do let x ← exact a; let y ← exact b; some (x + y)
  | .sub a b => do let x ← exact a; let y ← exact b; some (x - y)
  | .neg a => do let x ← exact a; some (-x)
  | .mul a b => do let x ← exact a; let y ← exact b; some (x * y)
  | .mulI a i => do let x ← exact a; some (x * i)
  | .div a b => do let x ← exact a; let y ← exact b; if y = 0 then none else some (x / y)
  | .divI a i => do let x ← exact a; if i = 0 then none else some (x / i)

/-- Normal form: positive denominator, coprime. -/
def Normal (q : Q) : Prop := 0 < q.den ∧ Int.gcd q.num q.den = 1

theorem simplify_spec (q : Q) (h : q.den ≠ 0) :
    ∃ r, simplify q = .ok r ∧ Normal r ∧ val r = val q := by
  obtain ⟨⟨n, hn⟩, ⟨d, hd⟩⟩ := gcd_dvd q.num q.den
  have hg := gcd_ne_zero q.num q.den (Or.inr h)
  set g := gcd q.num q.den with hgdef
  have hd0 : d ≠ 0 := by rintro rfl; simp at hd; exact h hd
  have hcop : Int.gcd n d = 1 := by
    have h1 := gcd_natAbs q.num q.den
    rw [← hgdef] at h1
    rw [hn, hd, Int.gcd_mul_left] at h1
    have : 0 < g.natAbs := by omega
    exact (Nat.eq_of_mul_eq_mul_left this (by omega))
  have e1 : idiv q.num g = .ok n := by
    simp only [idiv, hg, if_false]; rw [hn, Int.mul_tdiv_cancel_left _ hg]
  have e2 : idiv q.den g = .ok d := by
    simp only [idiv, hg, if_false]; rw [hd, Int.mul_tdiv_cancel_left _ hg]
  have hv : (n : ℚ) / d = val q := by
    unfold val
    rw [hn, hd]
    push_cast
    have : (g : ℚ) ≠ 0 := by exact_mod_cast hg
    field_simp
  unfold simplify
  simp only [← hgdef, e1, e2, Outcome.bind_ok]
  by_cases hs : d ≥ 0
  · refine ⟨⟨n, d⟩, ?_, ⟨by simp only; omega, hcop⟩, hv⟩
    simp [adjustSigns, hs, assertPos]; omega
  · refine ⟨⟨-n, -d⟩, ?_, ⟨by simp only; omega, by simpa using hcop⟩, ?_⟩
    · simp [adjustSigns, hs, assertPos]; try omega
    · rw [← hv]; unfold val; push_cast; rw [neg_div_neg_eq]

theorem mk2_spec (n d : Int) (h : d ≠ 0) : ∃ r, mk2 n d = .ok r ∧ 0 < r.den ∧ val r = (n : ℚ) / d ∧
    r.num.natAbs = n.natAbs := by
  unfold mk2
  by_cases hs : d ≥ 0
  · refine ⟨⟨n, d⟩, ?_, by simp only; omega, rfl, rfl⟩
    simp [adjustSigns, hs, assertPos]; omega
  · refine ⟨⟨-n, -d⟩, ?_, by simp only; omega, ?_, by simp⟩
    · simp [adjustSigns, hs, assertPos]; try omega
    · unfold val; push_cast; rw [neg_div_neg_eq]

theorem mk2_zero (n : Int) : (mk2 n 0).IsUB := by
  simp [mk2, adjustSigns, assertPos]

theorem mul_spec (x y : Q) (hx : x.den ≠ 0) (hy : y.den ≠ 0) :
    ∃ r, mul x y = .ok r ∧ r.den ≠ 0 ∧ val r = val x * val y := by
  obtain ⟨⟨a, ha⟩, ⟨d, hd⟩⟩ := gcd_dvd x.num y.den
  obtain ⟨⟨b, hb⟩, ⟨c, hc⟩⟩ := gcd_dvd x.den y.num
  have hg1 := gcd_ne_zero x.num y.den (Or.inr hy)
  have hg2 := gcd_ne_zero x.den y.num (Or.inl hx)
  set g1 := gcd x.num y.den with hg1d
  set g2 := gcd x.den y.num with hg2d
  have hd0 : d ≠ 0 := by rintro rfl; simp at hd; exact hy hd
  have hb0 : b ≠ 0 := by rintro rfl; simp at hb; exact hx hb
  have e : ∀ g t s : Int, g ≠ 0 → t = g * s → idiv t g = .ok s := by
    intro g t s h1 h2
    simp only [idiv, h1, if_false]; rw [h2, Int.mul_tdiv_cancel_left _ h1]
  refine ⟨⟨a * c, b * d⟩, ?_, by simp [hb0, hd0], ?_⟩
  · unfold mul
    simp only [← hg1d, ← hg2d, e g1 _ _ hg1 ha, e g2 _ _ hg2 hb, e g2 _ _ hg2 hc, e g1 _ _ hg1 hd,
      Outcome.bind_ok]
  · unfold val
    rw [ha, hb, hc, hd]
    push_cast
    have h1 : (g1 : ℚ) ≠ 0 := by exact_mod_cast hg1
    have h2 : (g2 : ℚ) ≠ 0 := by exact_mod_cast hg2
    have h3 : (d : ℚ) ≠ 0 := by exact_mod_cast hd0
    have h4 : (b : ℚ) ≠ 0 := by exact_mod_cast hb0
    field_simp

theorem val_eq_zero (q : Q) (h : q.den ≠ 0) : val q = 0 ↔ q.num = 0 := by
  unfold val
  rw [div_eq_zero_iff]
  have : (q.den : ℚ) ≠ 0 := by exact_mod_cast h
  simp [this]

end Verif.Rational
