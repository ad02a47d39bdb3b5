import Verif.Lemmas.BinghamFlow
/-!
Converged states, residuals and the number of passes.
-/
noncomputable section
namespace Verif.Bingham
open Finset Spec.Bingham Rigidity Tensor

variable {D : Nat} {U : Type} {P : Problem D U} {w : Nat → ℝ} {W : (Nat → Nat → ℝ) → Prop} {st st' : State U} {res r0 : ℝ}

theorem band_above {p : Params} {s : Nat} {th : Nat → ℝ} : Band p s th ↔ Above (Real.sqrt 2 * p.yield) s th := by
  have e : bound p + slack p = (1 + 1 / 10 ^ 6) * (Real.sqrt 2 * p.yield) := by rw [slack_eq, bound]; ring
  rw [Band, Above, e, bound]

/-- Local changes. -/
def local2 (P : Problem D U) (w : Nat → ℝ) (st st' : State U) (T : Nat) : ℝ :=
  w T * (ip (P.cell T).phi.length (fun i => st'.mult T i - st.mult T i) (fun i => st'.mult T i - st.mult T i) +
    P.prm.alpha ^ 2 * ip (P.cell T).phi.length
      (fun i => strain (P.cell T).n (P.cell T).G (P.take st'.sol T) i - strain (P.cell T).n (P.cell T).G (P.take st.sol T) i)
      (fun i => strain (P.cell T).n (P.cell T).G (P.take st'.sol T) i - strain (P.cell T).n (P.cell T).G (P.take st.sol T) i))

theorem local2_nonneg (h : ∀ T < P.N, Lowest (P.cell T) (w T)) {T : Nat} (hT : T < P.N) : 0 ≤ local2 P w st st' T :=
  mul_nonneg (h T hT).pos.le (add_nonneg (ip_self_nonneg _ _) (mul_nonneg (sq_nonneg _) (ip_self_nonneg _ _)))

theorem step_eq (h : ∀ T < P.N, Lowest (P.cell T) (w T)) (h1 : step P st = .ok (st', res, r0)) : ∃ r, st'.sol = P.solve r ∧
    (∀ T < P.N, r T = localRhs P.prm (P.cell T) (st.mult T) (gam P st T)) ∧
    (∀ T < P.N, ∀ i, st'.mult T i = st.mult T i + 2 * P.prm.alpha * (P.grad st'.sol T i - gam P st T i)) ∧
    res = Real.sqrt (∑ T ∈ range P.N, ∑ T' ∈ range (T + 1), local2 P w st st' T') ∧
    r0 = Real.sqrt (total P w (fun T i => st'.mult T i - st.mult T i) (fun T i => st'.mult T i - st.mult T i)) := by
  obtain ⟨st'', res', r0', r, e, h2, h3, h4, h5, h6⟩ := step_ok (st := st) h
  rw [h1] at e
  injection e with e
  injection e with e1 e2
  injection e2 with e2 e3
  subst e1 e2 e3
  refine ⟨r, h2, h3, h4, ?_, h6⟩
  rw [h5]
  congr 1
  refine sum_congr rfl fun T _ => sum_congr rfl fun T' _ => ?_
  rw [local2, mul_add]
  congr 1
  show _ = w T' * (_ * ip _ (fun i => P.grad st'.sol T' i - P.grad st.sol T' i) (fun i => P.grad st'.sol T' i - P.grad st.sol T' i))
  ring

theorem step_facts (h : ∀ T < P.N, Lowest (P.cell T) (w T)) (hs : P.Solves W) (h1 : step P st = .ok (st', res, r0)) :
    Balanced P w W (P.take st'.sol) st'.mult ∧ ∃ r, st'.sol = P.solve r := by
  obtain ⟨r, h2, h3, h4, -, -⟩ := step_eq h h1
  exact ⟨step_balance h hs h2 h3 h4, r, h2⟩

theorem double_sum (f : Nat → ℝ) : ∀ n : Nat, ∑ T ∈ range n, ∑ T' ∈ range (T + 1), f T' = ∑ T ∈ range n, (n - T : ℝ) * f T
  | 0 => rfl
  | n + 1 => by
    rw [sum_range_succ, double_sum f n, sum_range_succ _ n, sum_range_succ _ n, ← add_assoc, ← sum_add_distrib]
    push_cast
    congr 1
    · exact sum_congr rfl fun T _ => by ring
    · ring

theorem sq_local (w : Nat → ℝ) : sq P.N w (fun T => (P.cell T).phi.length) (fun T i => st'.mult T i - st.mult T i) +
      P.prm.alpha ^ 2 * sq P.N w (fun T => (P.cell T).phi.length)
        (fun T i => strain (P.cell T).n (P.cell T).G (P.take st'.sol T) i - strain (P.cell T).n (P.cell T).G (P.take st.sol T) i) =
    ∑ T ∈ range P.N, local2 P w st st' T := by
  simp only [Spec.Bingham.sq]
  rw [mul_sum, ← sum_add_distrib]
  exact sum_congr rfl fun T _ => by rw [local2]; ring

theorem residual_facts (h : ∀ T < P.N, Lowest (P.cell T) (w T)) (h1 : step P st = .ok (st', res, r0)) :
    res ^ 2 = ∑ T ∈ range P.N, (P.N - T : ℝ) * local2 P w st st' T ∧
    sq P.N w (fun T => (P.cell T).phi.length) (fun T i => st'.mult T i - st.mult T i) +
      P.prm.alpha ^ 2 * sq P.N w (fun T => (P.cell T).phi.length)
        (fun T i => strain (P.cell T).n (P.cell T).G (P.take st'.sol T) i - strain (P.cell T).n (P.cell T).G (P.take st.sol T) i) ≤
      res ^ 2 ∧
    res ^ 2 ≤ P.N * (sq P.N w (fun T => (P.cell T).phi.length) (fun T i => st'.mult T i - st.mult T i) +
      P.prm.alpha ^ 2 * sq P.N w (fun T => (P.cell T).phi.length)
        (fun T i => strain (P.cell T).n (P.cell T).G (P.take st'.sol T) i - strain (P.cell T).n (P.cell T).G (P.take st.sol T) i)) ∧
    r0 ^ 2 = sq P.N w (fun T => (P.cell T).phi.length) (fun T i => st'.mult T i - st.mult T i) ∧ 0 ≤ res ∧ 0 ≤ r0 := by
  obtain ⟨r, -, -, -, h5, h6⟩ := step_eq h h1
  have hn : ∀ T ∈ range P.N, 0 ≤ local2 P w st st' T := fun T hT => local2_nonneg h (mem_range.1 hT)
  have hc : ∀ T ∈ range P.N, (1 : ℝ) ≤ P.N - T ∧ (P.N - T : ℝ) ≤ P.N := fun T hT => by
    have h1 : ((T + 1 : Nat) : ℝ) ≤ P.N := by exact_mod_cast mem_range.1 hT
    push_cast at h1
    exact ⟨by linarith, by linarith [(Nat.cast_nonneg T : (0 : ℝ) ≤ T)]⟩
  have e : res ^ 2 = ∑ T ∈ range P.N, (P.N - T : ℝ) * local2 P w st st' T := by
    rw [h5, Real.sq_sqrt, double_sum]
    exact sum_nonneg fun T hT => sum_nonneg fun T' hT' =>
      hn T' (mem_range.2 (by have := mem_range.1 hT; have := mem_range.1 hT'; omega))
  refine ⟨e, ?_, ?_, ?_, by rw [h5]; exact Real.sqrt_nonneg _, by rw [h6]; exact Real.sqrt_nonneg _⟩
  · rw [e, sq_local]
    exact sum_le_sum fun T hT => le_mul_of_one_le_left (hn T hT) (hc T hT).1
  · rw [e, sq_local, mul_sum]
    exact sum_le_sum fun T hT => mul_le_mul_of_nonneg_right (hc T hT).2 (hn T hT)
  · rw [h6, Real.sq_sqrt]
    · rfl
    · exact sum_nonneg fun T hT => mul_nonneg (h T (mem_range.1 hT)).pos.le (ip_self_nonneg _ _)

theorem converged_law (h : ∀ T < P.N, Lowest (P.cell T) (w T)) (hmu : 0 < P.prm.mu) (hal : 0 < P.prm.alpha)
    (hy : 0 ≤ P.prm.yield) (h1 : step P st = .ok (st', 0, r0)) : ∀ T < P.N,
    Law P.prm.mu (bound P.prm) (bound P.prm + slack P.prm) (P.cell T).phi.length
      (st'.mult T) (strain (P.cell T).n (P.cell T).G (P.take st'.sol T)) := by
  intro T hT
  obtain ⟨r, -, -, h4, -, -⟩ := step_eq h h1
  have hr := (residual_facts h h1).2.1
  rw [sq_local] at hr
  have hz : local2 P w st st' T = 0 := by
    have := (sum_eq_zero_iff_of_nonneg fun T hT => local2_nonneg h (mem_range.1 hT)).1
      (le_antisymm (by simpa using hr) (sum_nonneg fun T hT => local2_nonneg (st := st) (st' := st') h (mem_range.1 hT)))
    exact this T (mem_range.2 hT)
  rw [local2, mul_eq_zero, or_iff_right (h T hT).pos.ne'] at hz
  have a1 := ip_self_nonneg (P.cell T).phi.length (fun i => st'.mult T i - st.mult T i)
  have a2 := ip_self_nonneg (P.cell T).phi.length (fun i => strain (P.cell T).n (P.cell T).G (P.take st'.sol T) i -
    strain (P.cell T).n (P.cell T).G (P.take st.sol T) i)
  have a3 := mul_nonneg (sq_nonneg P.prm.alpha) a2
  have z1 : ip (P.cell T).phi.length (fun i => st'.mult T i - st.mult T i) (fun i => st'.mult T i - st.mult T i) = 0 := by linarith
  rw [z1, zero_add] at hz
  have z2 := hz
  rw [mul_eq_zero, or_iff_right (by positivity : P.prm.alpha ^ 2 ≠ 0)] at z2
  have b1 : ∀ i < (P.cell T).phi.length, st'.mult T i - st.mult T i = 0 :=
    nrm_eq_zero.1 (by rw [nrm, z1, Real.sqrt_zero])
  have b2 : ∀ i < (P.cell T).phi.length, strain (P.cell T).n (P.cell T).G (P.take st'.sol T) i -
      strain (P.cell T).n (P.cell T).G (P.take st.sol T) i = 0 := nrm_eq_zero.1 (by rw [nrm, z2, Real.sqrt_zero])
  set s := (P.cell T).phi.length
  set g := strain (P.cell T).n (P.cell T).G (P.take st'.sol T)
  set th := theta P.prm (P.cell T) (st.mult T) (P.take st.sol T) with hth
  have c1 : ∀ i < s, gam P st T i = g i := fun i hi => by
    have e1 := b1 i hi
    have e2 := h4 T hT i
    have e3 : 2 * P.prm.alpha * (P.grad st'.sol T i - gam P st T i) = 0 := by linarith
    rw [mul_eq_zero, or_iff_right (by positivity)] at e3
    have e4 : P.grad st'.sol T i = g i := rfl
    linarith
  have c2 : ∀ i < s, th i = st'.mult T i + 2 * P.prm.alpha * g i := fun i hi => by
    have e1 := b1 i hi
    have e2 := b2 i hi
    have e3 : th i = st.mult T i + 2 * P.prm.alpha * strain (P.cell T).n (P.cell T).G (P.take st.sol T) i := rfl
    have e4 : strain (P.cell T).n (P.cell T).G (P.take st.sol T) i = g i := by linarith
    rw [e3, e4]
    linarith
  have hb := bound_nonneg hy
  have hs : 0 ≤ slack P.prm := by rw [slack_eq]; positivity
  have hma : 0 < P.prm.mu + P.prm.alpha := by linarith
  have hg : gam P st T = rate P.prm s th := rfl
  rw [hg] at c1
  rcases rate_cases hy s th with ⟨k1, k2⟩ | ⟨k1, k2⟩
  · rw [k2] at c1
    obtain ⟨-, hn⟩ := shrink_plastic hma hb (by linarith : bound P.prm < nrm s th)
    have hng : nrm s g = (nrm s th - bound P.prm) / (2 * (P.prm.mu + P.prm.alpha)) := by rw [← hn]; exact (nrm_congr c1).symm
    have hpos : 0 < nrm s th - bound P.prm := by linarith
    refine ⟨fun hz => ?_, fun _ i hi => ?_⟩
    · rw [nrm_eq_zero.2 hz] at hng
      exact absurd hng (by positivity)
    · have e1 : st'.mult T i = th i - 2 * P.prm.alpha * g i := by linarith [c2 i hi]
      have ht0 : 0 < nrm s th := by linarith
      rw [hng, e1, ← c1 i hi, shrink]
      field_simp
      ring
  · rw [k2] at c1
    have hz : ∀ i < s, g i = 0 := fun i hi => (c1 i hi).symm
    refine ⟨fun _ => ?_, fun hn => absurd hz hn⟩
    have e : ∀ i < s, st'.mult T i = th i := fun i hi => by rw [c2 i hi, hz i hi]; ring
    rw [nrm_congr e]
    exact k1

theorem dist2_eq (w us ss) (st : State U) : dist2 P w us ss st =
    sq P.N w (fun T => (P.cell T).phi.length) (fun T i => st.mult T i - ss T i) +
      (2 * P.prm.alpha) ^ 2 * sq P.N w (fun T => (P.cell T).phi.length) (fun T i =>
        strain (P.cell T).n (P.cell T).G (P.take st.sol T) i - strain (P.cell T).n (P.cell T).G (us T) i) := rfl

theorem change2_eq (w) (st st' : State U) : change2 P w st st' =
    sq P.N w (fun T => (P.cell T).phi.length) (fun T i => st'.mult T i - st.mult T i) +
      (2 * P.prm.alpha) ^ 2 * sq P.N w (fun T => (P.cell T).phi.length) (fun T i =>
        strain (P.cell T).n (P.cell T).G (P.take st'.sol T) i - strain (P.cell T).n (P.cell T).G (P.take st.sol T) i) := rfl

theorem step_decrease (h : ∀ T < P.N, Lowest (P.cell T) (w T)) (hs : P.Solves W) (hmu : 0 < P.prm.mu) (hal : 0 < P.prm.alpha)
    (hy : 0 ≤ P.prm.yield) {us ss : Nat → Nat → ℝ}
    (hl : ∀ T < P.N, Law P.prm.mu (bound P.prm) (bound P.prm) (P.cell T).phi.length
      (ss T) (strain (P.cell T).n (P.cell T).G (us T)))
    (hb : Balanced P w W us ss) (hW : ∀ r, W fun T i => P.take (P.solve r) T i - us T i)
    {st0 : State U} {res0 r00 : ℝ} (h0 : step P st0 = .ok (st, res0, r00)) (h1 : step P st = .ok (st', res, r0)) (q : Nat → Prop)
    [DecidablePred q] (hq : ∀ T < P.N, Above (Real.sqrt 2 * P.prm.yield) (P.cell T).phi.length
      (fun i => st.mult T i + 2 * P.prm.alpha * strain (P.cell T).n (P.cell T).G (P.take st.sol T) i) → q T) :
    dist2 P w us ss st' + change2 P w st st' ≤ dist2 P w us ss st +
      P.prm.alpha * (1 / 10 ^ 6 * (Real.sqrt 2 * P.prm.yield)) ^ 2 / (2 * P.prm.mu) *
        ∑ T ∈ range P.N, if q T then w T else 0 := by
  obtain ⟨b0, r, hr⟩ := step_facts h hs h0
  obtain ⟨b1, r', hr'⟩ := step_facts h hs h1
  obtain ⟨-, -, -, h4, -, -⟩ := step_eq h h1
  have d := decrease h hmu hal hy hb hl b0 b1 (by rw [hr, hr']; exact hs.diff _ _) (by rw [hr']; exact hW _) h4
  have key : 4 * P.prm.alpha * ∑ T ∈ range P.N, w T * (excess P st T *
        nrm (P.cell T).phi.length (fun i => gam P st T i - strain (P.cell T).n (P.cell T).G (us T) i)) ≤
      8 * P.prm.mu * P.prm.alpha * total P w (fun T i => gam P st T i - strain (P.cell T).n (P.cell T).G (us T) i)
        (fun T i => gam P st T i - strain (P.cell T).n (P.cell T).G (us T) i) +
      P.prm.alpha * slack P.prm ^ 2 / (2 * P.prm.mu) * ∑ T ∈ range P.N, if q T then w T else 0 := by
    rw [total, mul_sum, mul_sum, mul_sum, ← sum_add_distrib]
    refine sum_le_sum fun T hT => ?_
    have hT := mem_range.1 hT
    have hw := (h T hT).pos
    rw [← nrm_sq]
    set x := nrm (P.cell T).phi.length (fun i => gam P st T i - strain (P.cell T).n (P.cell T).G (us T) i)
    by_cases hB : Band P.prm (P.cell T).phi.length (theta P.prm (P.cell T) (st.mult T) (P.take st.sol T))
    · rw [excess, if_pos hB, if_pos (hq T hT (band_above.1 hB))]
      have e : 8 * P.prm.mu * P.prm.alpha * (w T * (x * x)) + P.prm.alpha * slack P.prm ^ 2 / (2 * P.prm.mu) * w T -
          4 * P.prm.alpha * (w T * (slack P.prm * x)) = 8 * P.prm.mu * P.prm.alpha * w T * (x - slack P.prm / (4 * P.prm.mu)) ^ 2 := by
        field_simp
        ring
      have : 0 ≤ 8 * P.prm.mu * P.prm.alpha * w T * (x - slack P.prm / (4 * P.prm.mu)) ^ 2 := by positivity
      linarith
    · rw [excess, if_neg hB, zero_mul, mul_zero, mul_zero]
      have a1 : 0 ≤ 8 * P.prm.mu * P.prm.alpha * (w T * (x * x)) := by
        have := mul_self_nonneg x
        positivity
      have a2 : 0 ≤ P.prm.alpha * slack P.prm ^ 2 / (2 * P.prm.mu) * if q T then w T else 0 :=
        mul_nonneg (by positivity) (by split <;> [exact hw.le; exact le_rfl])
      linarith
  have e : (1 / 10 ^ 6 * (Real.sqrt 2 * P.prm.yield)) = slack P.prm := by rw [slack]; ring
  rw [e]
  linarith

theorem change2_le (h : ∀ T < P.N, Lowest (P.cell T) (w T)) (h1 : step P st = .ok (st', res, r0)) :
    res ^ 2 ≤ P.N * change2 P w st st' := by
  refine (residual_facts h h1).2.2.1.trans (mul_le_mul_of_nonneg_left ?_ (Nat.cast_nonneg _))
  rw [change2_eq]
  have : 0 ≤ sq P.N w (fun T => (P.cell T).phi.length) (fun T i =>
      strain (P.cell T).n (P.cell T).G (P.take st'.sol T) i - strain (P.cell T).n (P.cell T).G (P.take st.sol T) i) :=
    sum_nonneg fun T hT => mul_nonneg (h T (mem_range.1 hT)).pos.le (ip_self_nonneg _ _)
  nlinarith [sq_nonneg P.prm.alpha]

theorem loop_true {s : Nat → State U} {e : Nat → ℝ × ℝ} (h1 : ∀ n, step P (s n) = .ok (s (n + 1), e n))
    (hN : ∀ n, (e n).1 < 100000) : ∀ k m, (∃ n, m ≤ n ∧ n < m + k ∧ (e n).1 < 1 / 10 ^ 8) →
    ∃ n, m ≤ n ∧ n < m + k ∧ loop P k (s m) = .ok (true, s (n + 1)) ∧ (e n).1 < 1 / 10 ^ 8
  | 0, m, ⟨n, h2, h3, _⟩ => by omega
  | k + 1, m, ⟨n, h2, h3, h4⟩ => by
    rw [loop, h1 m, Outcome.bind_ok]
    simp only
    rw [if_neg (not_not.2 (hN m))]
    by_cases hm : (e m).1 < 1 / 10 ^ 8
    · exact ⟨m, le_rfl, by omega, by rw [if_pos hm], hm⟩
    · rw [if_neg hm]
      have : m ≠ n := fun e => hm (by rw [e]; exact h4)
      obtain ⟨n', a, b, c, d⟩ := loop_true h1 hN k (m + 1) ⟨n, by omega, by omega, h4⟩
      exact ⟨n', by omega, by omega, c, d⟩

theorem loop_stops (h : ∀ T < P.N, Lowest (P.cell T) (w T)) (hs : P.Solves W) (hmu : 0 < P.prm.mu) (hal : 0 < P.prm.alpha)
    (hy : 0 ≤ P.prm.yield) {us ss : Nat → Nat → ℝ}
    (hl : ∀ T < P.N, Law P.prm.mu (bound P.prm) (bound P.prm) (P.cell T).phi.length
      (ss T) (strain (P.cell T).n (P.cell T).G (us T)))
    (hb : Balanced P w W us ss) (hW : ∀ r, W fun T i => P.take (P.solve r) T i - us T i)
    {s : Nat → State U} {e : Nat → ℝ × ℝ} (h1 : ∀ n, step P (s n) = .ok (s (n + 1), e n))
    (hq : ∀ n, ∀ T < P.N, ¬ Above (Real.sqrt 2 * P.prm.yield) (P.cell T).phi.length
      (fun i => (s n).mult T i + 2 * P.prm.alpha * strain (P.cell T).n (P.cell T).G (P.take (s n).sol T) i))
    (hN : ∀ n, (e n).1 < 100000) (k : Nat) (hk : P.N * dist2 P w us ss (s 1) < k * (1 / 10 ^ 8) ^ 2) :
    ∃ n, n ≤ k ∧ loop P (k + 1) (s 0) = .ok (true, s (n + 1)) ∧ (e n).1 < 1 / 10 ^ 8 := by
  have d : ∀ n, dist2 P w us ss (s (n + 2)) + change2 P w (s (n + 1)) (s (n + 2)) ≤ dist2 P w us ss (s (n + 1)) := fun n => by
    have := step_decrease h hs hmu hal hy hl hb hW (res0 := (e n).1) (r00 := (e n).2) (h1 n)
      (res := (e (n + 1)).1) (r0 := (e (n + 1)).2) (h1 (n + 1)) (fun _ => False) fun T hT hA => hq _ T hT hA
    simpa using this
  have tot : ∀ n : Nat, dist2 P w us ss (s (n + 1)) + ∑ m ∈ range n, change2 P w (s (m + 1)) (s (m + 2)) ≤
      dist2 P w us ss (s 1) := by
    intro n
    induction n with
    | zero => simp
    | succ n ih =>
      rw [sum_range_succ]
      linarith [d n]
  have ex : ∃ n, 0 ≤ n ∧ n < 0 + (k + 1) ∧ (e n).1 < 1 / 10 ^ 8 := by
    by_contra hc
    push Not at hc
    have hge : ∀ m ∈ range k, (1 / 10 ^ 8 : ℝ) ^ 2 ≤ P.N * change2 P w (s (m + 1)) (s (m + 2)) := fun m hm => by
      have h2 := hc (m + 1) (by omega) (by have := mem_range.1 hm; omega)
      exact (pow_le_pow_left₀ (by norm_num) h2 2).trans
        (change2_le h (res := (e (m + 1)).1) (r0 := (e (m + 1)).2) (h1 (m + 1)))
    have hS := sum_le_sum hge
    rw [sum_const, card_range, nsmul_eq_mul, ← mul_sum] at hS
    have hd : 0 ≤ dist2 P w us ss (s (k + 1)) := by
      rw [dist2_eq]
      exact add_nonneg (sum_nonneg fun T hT => mul_nonneg (h T (mem_range.1 hT)).pos.le (ip_self_nonneg _ _))
        (mul_nonneg (sq_nonneg _) (sum_nonneg fun T hT => mul_nonneg (h T (mem_range.1 hT)).pos.le (ip_self_nonneg _ _)))
    have := mul_le_mul_of_nonneg_left (tot k) (Nat.cast_nonneg (α := ℝ) P.N)
    have h5 := mul_nonneg (Nat.cast_nonneg (α := ℝ) P.N) hd
    rw [mul_add] at this
    linarith
  obtain ⟨n, -, b, c, d⟩ := loop_true h1 hN (k + 1) 0 ex
  exact ⟨n, by omega, c, d⟩

end Verif.Bingham
