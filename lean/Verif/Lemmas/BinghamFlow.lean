import Verif.Lemmas.Bingham
import Mathlib.Tactic.LinearCombination
/-!
Balance of momentum after a pass, and the distance to a solution.
-/
noncomputable section
namespace Verif.Bingham
open Finset Spec.Bingham Rigidity Tensor

variable {D : Nat} {U : Type}

section cell
variable {c : Cell D} {w : ℝ} {p : Params}

theorem data_form (h : Lowest c w) (u v : Nat → ℝ) : ∑ i ∈ range c.n, ∑ j ∈ range c.n, v i * c.data i j * u j =
    w * ip c.phi.length (strain c.n c.G u) (strain c.n c.G v) := by
  have e : ∀ i < c.n, ∀ j < c.n, c.data i j = ∑ k ∈ range c.phi.length, w * (c.G k i * c.G k j) := by
    intro i hi j hj
    rw [h.data i hi j hj]
    refine sum_congr rfl fun k hk => ?_
    have := mass_mul h (fun l => c.G l j) (mem_range.1 hk)
    calc ∑ l ∈ range c.phi.length, c.G k i * c.mass k l * c.G l j
        = c.G k i * ∑ l ∈ range c.phi.length, c.mass k l * c.G l j := by
          rw [mul_sum]; exact sum_congr rfl fun l _ => by ring
      _ = _ := by rw [this]; ring
  calc ∑ i ∈ range c.n, ∑ j ∈ range c.n, v i * c.data i j * u j
      = ∑ i ∈ range c.n, ∑ j ∈ range c.n, ∑ k ∈ range c.phi.length, w * (c.G k j * u j * (c.G k i * v i)) := by
        refine sum_congr rfl fun i hi => sum_congr rfl fun j hj => ?_
        rw [e i (mem_range.1 hi) j (mem_range.1 hj), mul_sum, sum_mul]
        exact sum_congr rfl fun k _ => by ring
    _ = ∑ k ∈ range c.phi.length, ∑ i ∈ range c.n, ∑ j ∈ range c.n, w * (c.G k j * u j * (c.G k i * v i)) := by
        rw [sum_congr rfl fun i _ => sum_comm, sum_comm]
    _ = _ := by
        rw [ip, mul_sum]
        refine sum_congr rfl fun k _ => ?_
        rw [strain, strain, sum_mul_sum, mul_sum, sum_comm]
        exact sum_congr rfl fun j _ => by rw [mul_sum]

theorem rhs_dot (h : Lowest c w) (sig gamma v : Nat → ℝ) : ∑ i ∈ range c.n, localRhs p c sig gamma i * v i =
    -(w * ip c.phi.length (fun k => sig k - 2 * p.alpha * gamma k) (strain c.n c.G v)) := by
  calc ∑ i ∈ range c.n, localRhs p c sig gamma i * v i
      = ∑ i ∈ range c.n, ∑ k ∈ range c.phi.length, -(w * ((sig k - 2 * p.alpha * gamma k) * (c.G k i * v i))) := by
        refine sum_congr rfl fun i _ => ?_
        rw [localRhs, neg_mul, sum_mul, ← sum_neg_distrib]
        refine sum_congr rfl fun k hk => ?_
        rw [mass_mul h _ (mem_range.1 hk)]
        ring
    _ = _ := by
        rw [sum_comm, ip, mul_sum, ← sum_neg_distrib]
        refine sum_congr rfl fun k _ => ?_
        rw [strain, mul_sum, mul_sum, ← sum_neg_distrib]

theorem lhs_form (h : Lowest c w) (u v : Nat → ℝ) : ∑ i ∈ range c.n, ∑ j ∈ range c.n, v i * localLhs p c i j * u j =
    2 * p.alpha * (w * ip c.phi.length (strain c.n c.G u) (strain c.n c.G v)) + 2 * p.mu * form c.n c.stab u v := by
  rw [← data_form h, form, mul_sum, mul_sum, ← sum_add_distrib]
  refine sum_congr rfl fun i _ => ?_
  rw [mul_sum, mul_sum, ← sum_add_distrib]
  exact sum_congr rfl fun j _ => by rw [localLhs]; ring

theorem strain_sub (n : Nat) (G : Nat → Nat → ℝ) (a b : Nat → ℝ) :
    strain n G (fun i => a i - b i) = fun k => strain n G a k - strain n G b k := by
  funext k
  simp only [strain, mul_sub, sum_sub_distrib]

theorem form_sub (n : Nat) (A : Nat → Nat → ℝ) (a b v : Nat → ℝ) : form n A (fun i => a i - b i) v = form n A a v - form n A b v := by
  simp only [form, mul_sub, sum_sub_distrib]

end cell

/-- Balance of momentum in the problem. -/
def Balanced (P : Problem D U) (w : Nat → ℝ) (W : (Nat → Nat → ℝ) → Prop) (u sig : Nat → Nat → ℝ) : Prop :=
  Balance P.N w (fun T => (P.cell T).phi.length) (fun T => (P.cell T).n) (fun T => (P.cell T).G) (fun T => (P.cell T).stab)
    P.prm.mu W u sig

variable {P : Problem D U} {w : Nat → ℝ} {W : (Nat → Nat → ℝ) → Prop} {st st' : State U}

theorem step_balance (h : ∀ T < P.N, Lowest (P.cell T) (w T)) (hs : P.Solves W) {r : Nat → Nat → ℝ}
    (h1 : st'.sol = P.solve r) (h2 : ∀ T < P.N, r T = localRhs P.prm (P.cell T) (st.mult T) (gam P st T))
    (h3 : ∀ T < P.N, ∀ i, st'.mult T i = st.mult T i + 2 * P.prm.alpha * (P.grad st'.sol T i - gam P st T i)) :
    Balanced P w W (P.take st'.sol) st'.mult := by
  intro v hv
  have hb := hs.balance r v hv
  rw [← h1] at hb
  have e1 : ∀ T ∈ range P.N, ∑ i ∈ range (P.cell T).n, ∑ j ∈ range (P.cell T).n,
      v T i * localLhs P.prm (P.cell T) i j * P.take st'.sol T j = _ := fun T hT => lhs_form (h T (mem_range.1 hT)) _ _
  have e2 : ∀ T ∈ range P.N, ∑ i ∈ range (P.cell T).n, r T i * v T i =
      -(w T * ip (P.cell T).phi.length (fun k => st.mult T k - 2 * P.prm.alpha * gam P st T k)
        (strain (P.cell T).n (P.cell T).G (v T))) := fun T hT => by
    rw [h2 T (mem_range.1 hT)]; exact rhs_dot (h T (mem_range.1 hT)) _ _ _
  rw [sum_congr rfl e1, sum_congr rfl e2, ← sub_eq_zero, ← sum_sub_distrib] at hb
  rw [← hb]
  refine sum_congr rfl fun T hT => ?_
  have e3 : ∀ i < (P.cell T).phi.length, st'.mult T i = (st.mult T i - 2 * P.prm.alpha * gam P st T i) +
      2 * P.prm.alpha * strain (P.cell T).n (P.cell T).G (P.take st'.sol T) i := fun i _ => by
    rw [h3 T (mem_range.1 hT) i]
    have : P.grad st'.sol T i = strain (P.cell T).n (P.cell T).G (P.take st'.sol T) i := rfl
    rw [this]
    ring
  rw [ip_congr e3 fun _ _ => rfl, ip_add, ip_smul]
  ring

/-- Differences of balanced stresses do not work on differences of velocities. -/
theorem balanced_sub (h : ∀ T < P.N, Lowest (P.cell T) (w T)) (hmu : 0 ≤ P.prm.mu) {u u' sig sig' : Nat → Nat → ℝ}
    (hb : Balanced P w W u sig) (hb' : Balanced P w W u' sig') (hW : W fun T i => u T i - u' T i) :
    total P w (fun T i => sig T i - sig' T i)
      (fun T i => strain (P.cell T).n (P.cell T).G (u T) i - strain (P.cell T).n (P.cell T).G (u' T) i) ≤ 0 := by
  have e1 := hb _ hW
  have e2 := hb' _ hW
  have e3 : ∑ T ∈ range P.N, (w T * ip (P.cell T).phi.length (fun i => sig T i - sig' T i)
      (strain (P.cell T).n (P.cell T).G fun i => u T i - u' T i) +
      2 * P.prm.mu * form (P.cell T).n (P.cell T).stab (fun i => u T i - u' T i) (fun i => u T i - u' T i)) = 0 := by
    rw [← sub_eq_zero.2 (e1.trans e2.symm), ← sum_sub_distrib]
    refine sum_congr rfl fun T _ => ?_
    rw [ip_sub, form_sub]
    ring
  rw [sum_add_distrib] at e3
  have e4 : 0 ≤ ∑ T ∈ range P.N, 2 * P.prm.mu *
      form (P.cell T).n (P.cell T).stab (fun i => u T i - u' T i) (fun i => u T i - u' T i) :=
    sum_nonneg fun T hT => mul_nonneg (by linarith) ((h T (mem_range.1 hT)).stab _)
  have e5 : total P w (fun T i => sig T i - sig' T i)
      (fun T i => strain (P.cell T).n (P.cell T).G (u T) i - strain (P.cell T).n (P.cell T).G (u' T) i) =
      ∑ T ∈ range P.N, w T * ip (P.cell T).phi.length (fun i => sig T i - sig' T i)
      (strain (P.cell T).n (P.cell T).G fun i => u T i - u' T i) :=
    sum_congr rfl fun T _ => by rw [strain_sub]
  rw [e5]
  linarith

/-- The identity behind the decrease, in one cell: `S`, `S'` are the errors of the stress before and after, `g`, `g'` those of
the strain, `e` that of the auxiliary rate. -/
theorem cell_identity {s : Nat} {rho : ℝ} {S S' g g' e : Nat → ℝ} (h : ∀ i < s, S' i = S i + rho * (g' i - e i)) :
    ip s S' S' + rho ^ 2 * ip s g' g' + ip s (fun i => S' i - S i) (fun i => S' i - S i) +
      rho ^ 2 * ip s (fun i => g' i - g i) (fun i => g' i - g i) +
      2 * rho * ip s (fun i => S' i - rho * (g' i - g i)) e =
    ip s S S + rho ^ 2 * ip s g g + 2 * rho * ip s S' g' + 2 * rho * ip s (fun i => S' i - S i) (fun i => g' i - g i) := by
  simp only [ip, mul_sum, ← sum_add_distrib]
  refine sum_congr rfl fun i hi => ?_
  have := h i (mem_range.1 hi)
  have he : rho * e i = S i + rho * g' i - S' i := by linarith
  linear_combination (2 * (S' i - rho * (g' i - g i))) * he

open Classical in
/-- Excess of the plastic stress that a cell leaves. -/
def excess (P : Problem D U) (st : State U) (T : Nat) : ℝ :=
  if Band P.prm (P.cell T).phi.length (theta P.prm (P.cell T) (st.mult T) (P.take st.sol T)) then slack P.prm else 0

/-- Distance of a state to a solution. -/
def dist2 (P : Problem D U) (w : Nat → ℝ) (us ss : Nat → Nat → ℝ) (st : State U) : ℝ :=
  total P w (fun T i => st.mult T i - ss T i) (fun T i => st.mult T i - ss T i) + (2 * P.prm.alpha) ^ 2 *
    total P w (fun T i => P.grad st.sol T i - strain (P.cell T).n (P.cell T).G (us T) i)
      (fun T i => P.grad st.sol T i - strain (P.cell T).n (P.cell T).G (us T) i)

/-- Squared changes in a pass. -/
def change2 (P : Problem D U) (w : Nat → ℝ) (st st' : State U) : ℝ :=
  total P w (fun T i => st'.mult T i - st.mult T i) (fun T i => st'.mult T i - st.mult T i) + (2 * P.prm.alpha) ^ 2 *
    total P w (fun T i => P.grad st'.sol T i - P.grad st.sol T i) (fun T i => P.grad st'.sol T i - P.grad st.sol T i)

open Classical in
/-- Strong monotonicity in one cell. -/
theorem cell_mono (hmu : 0 < P.prm.mu + P.prm.alpha) (hy : 0 ≤ P.prm.yield) {us ss : Nat → Nat → ℝ} {T : Nat}
    (hl : Law P.prm.mu (bound P.prm) (bound P.prm) (P.cell T).phi.length (ss T) (strain (P.cell T).n (P.cell T).G (us T))) :
    2 * P.prm.mu * ip (P.cell T).phi.length (fun i => gam P st T i - strain (P.cell T).n (P.cell T).G (us T) i)
        (fun i => gam P st T i - strain (P.cell T).n (P.cell T).G (us T) i) -
      excess P st T * nrm (P.cell T).phi.length (fun i => gam P st T i - strain (P.cell T).n (P.cell T).G (us T) i) ≤
    ip (P.cell T).phi.length
      (fun i => theta P.prm (P.cell T) (st.mult T) (P.take st.sol T) i - 2 * P.prm.alpha * gam P st T i - ss T i)
      (fun i => gam P st T i - strain (P.cell T).n (P.cell T).G (us T) i) := by
  set s := (P.cell T).phi.length
  set gs := strain (P.cell T).n (P.cell T).G (us T)
  set th := theta P.prm (P.cell T) (st.mult T) (P.take st.sol T)
  have h1 := rate_plastic hmu hy s th
  have h2 := law_plastic (bound_nonneg hy) hl
  have h3 := plastic_mono h1 h2
  have hex : (if Band P.prm s th then bound P.prm + slack P.prm else bound P.prm) - bound P.prm = excess P st T := by
    by_cases hB : Band P.prm s th
    · rw [if_pos hB, excess, if_pos hB]; ring
    · rw [if_neg hB, excess, if_neg hB]; ring
  rw [hex] at h3
  have hg : gam P st T = rate P.prm s th := rfl
  have hn : excess P st T * nrm s gs ≤ excess P st T * nrm s (fun i => gam P st T i - gs i) := by
    rw [excess]
    split
    · rename_i hB
      have e : nrm s (fun i => gam P st T i - gs i) = nrm s gs := by
        rw [hg, rate_band hy hB, nrm, nrm, ip, ip]
        congr 1
        exact sum_congr rfl fun i _ => by ring
      rw [e]
    · simp
  rw [← hg] at h3
  have e : ip s (fun i => th i - 2 * P.prm.alpha * gam P st T i - ss T i) (fun i => gam P st T i - gs i) =
      2 * P.prm.mu * ip s (fun i => gam P st T i - gs i) (fun i => gam P st T i - gs i) +
      ip s (fun i => (th i - 2 * P.prm.alpha * gam P st T i - 2 * P.prm.mu * gam P st T i) - (ss T i - 2 * P.prm.mu * gs i))
        (fun i => gam P st T i - gs i) := by
    rw [← ip_smul, ← ip_add]
    exact ip_congr (fun i _ => by ring) fun _ _ => rfl
  rw [e]
  linarith

/-- A pass brings a balanced state closer to every solution. -/
theorem decrease (h : ∀ T < P.N, Lowest (P.cell T) (w T)) (hmu : 0 < P.prm.mu) (hal : 0 < P.prm.alpha) (hy : 0 ≤ P.prm.yield)
    {us ss : Nat → Nat → ℝ} (hb0 : Balanced P w W us ss) (hl : ∀ T < P.N, Law P.prm.mu (bound P.prm) (bound P.prm)
      (P.cell T).phi.length (ss T) (strain (P.cell T).n (P.cell T).G (us T)))
    (hb : Balanced P w W (P.take st.sol) st.mult) (hb' : Balanced P w W (P.take st'.sol) st'.mult)
    (hW : W fun T i => P.take st'.sol T i - P.take st.sol T i) (hW' : W fun T i => P.take st'.sol T i - us T i)
    (h3 : ∀ T < P.N, ∀ i, st'.mult T i = st.mult T i + 2 * P.prm.alpha * (P.grad st'.sol T i - gam P st T i)) :
    dist2 P w us ss st' + change2 P w st st' + 8 * P.prm.mu * P.prm.alpha *
      total P w (fun T i => gam P st T i - strain (P.cell T).n (P.cell T).G (us T) i)
        (fun T i => gam P st T i - strain (P.cell T).n (P.cell T).G (us T) i) ≤
    dist2 P w us ss st + 4 * P.prm.alpha * ∑ T ∈ range P.N, w T * (excess P st T *
      nrm (P.cell T).phi.length (fun i => gam P st T i - strain (P.cell T).n (P.cell T).G (us T) i)) := by
  have c1 := balanced_sub h hmu.le hb' hb0 hW'
  have c2 := balanced_sub h hmu.le hb' hb hW
  have key : ∀ T ∈ range P.N,
      w T * ip (P.cell T).phi.length (fun i => st'.mult T i - ss T i) (fun i => st'.mult T i - ss T i) +
      (2 * P.prm.alpha) ^ 2 * (w T * ip (P.cell T).phi.length
        (fun i => P.grad st'.sol T i - strain (P.cell T).n (P.cell T).G (us T) i)
        (fun i => P.grad st'.sol T i - strain (P.cell T).n (P.cell T).G (us T) i)) +
      (w T * ip (P.cell T).phi.length (fun i => st'.mult T i - st.mult T i) (fun i => st'.mult T i - st.mult T i) +
      (2 * P.prm.alpha) ^ 2 * (w T * ip (P.cell T).phi.length (fun i => P.grad st'.sol T i - P.grad st.sol T i)
        (fun i => P.grad st'.sol T i - P.grad st.sol T i))) +
      8 * P.prm.mu * P.prm.alpha * (w T * ip (P.cell T).phi.length
        (fun i => gam P st T i - strain (P.cell T).n (P.cell T).G (us T) i)
        (fun i => gam P st T i - strain (P.cell T).n (P.cell T).G (us T) i)) ≤
      w T * ip (P.cell T).phi.length (fun i => st.mult T i - ss T i) (fun i => st.mult T i - ss T i) +
      (2 * P.prm.alpha) ^ 2 * (w T * ip (P.cell T).phi.length
        (fun i => P.grad st.sol T i - strain (P.cell T).n (P.cell T).G (us T) i)
        (fun i => P.grad st.sol T i - strain (P.cell T).n (P.cell T).G (us T) i)) +
      4 * P.prm.alpha * (w T * (excess P st T *
        nrm (P.cell T).phi.length (fun i => gam P st T i - strain (P.cell T).n (P.cell T).G (us T) i))) +
      4 * P.prm.alpha * (w T * ip (P.cell T).phi.length (fun i => st'.mult T i - ss T i)
        (fun i => P.grad st'.sol T i - strain (P.cell T).n (P.cell T).G (us T) i)) +
      4 * P.prm.alpha * (w T * ip (P.cell T).phi.length (fun i => st'.mult T i - st.mult T i)
        (fun i => P.grad st'.sol T i - P.grad st.sol T i)) := by
    intro T hT
    have hT := mem_range.1 hT
    have m := cell_mono (st := st) (by linarith : 0 < P.prm.mu + P.prm.alpha) hy (hl T hT)
    have id := cell_identity (s := (P.cell T).phi.length) (rho := 2 * P.prm.alpha) (S := fun i => st.mult T i - ss T i)
      (S' := fun i => st'.mult T i - ss T i) (g := fun i => P.grad st.sol T i - strain (P.cell T).n (P.cell T).G (us T) i)
      (g' := fun i => P.grad st'.sol T i - strain (P.cell T).n (P.cell T).G (us T) i)
      (e := fun i => gam P st T i - strain (P.cell T).n (P.cell T).G (us T) i) (fun i _ => by rw [h3 T hT i]; ring)
    simp only [sub_sub_sub_cancel_right] at id
    have e : ip (P.cell T).phi.length
        (fun i => st'.mult T i - ss T i - 2 * P.prm.alpha * (P.grad st'.sol T i - P.grad st.sol T i))
        (fun i => gam P st T i - strain (P.cell T).n (P.cell T).G (us T) i) = ip (P.cell T).phi.length
        (fun i => theta P.prm (P.cell T) (st.mult T) (P.take st.sol T) i - 2 * P.prm.alpha * gam P st T i - ss T i)
        (fun i => gam P st T i - strain (P.cell T).n (P.cell T).G (us T) i) := by
      refine ip_congr (fun i _ => ?_) fun _ _ => rfl
      rw [h3 T hT i, theta]
      have : P.grad st.sol T i = mulVec (P.cell T).n (P.cell T).G (P.take st.sol T) i := rfl
      rw [this]
      ring
    rw [e] at id
    have hw := (h T hT).pos
    have := mul_le_mul_of_nonneg_left m (mul_nonneg hw.le hal.le)
    have id2 := congrArg (fun x => w T * x) id
    linarith
  have S := sum_le_sum key
  simp only [sum_add_distrib, ← mul_sum] at S
  have z1 : 4 * P.prm.alpha * ∑ T ∈ range P.N, w T * ip (P.cell T).phi.length (fun i => st'.mult T i - ss T i)
      (fun i => P.grad st'.sol T i - strain (P.cell T).n (P.cell T).G (us T) i) ≤ 0 :=
    mul_nonpos_of_nonneg_of_nonpos (by linarith) c1
  have z2 : 4 * P.prm.alpha * ∑ T ∈ range P.N, w T * ip (P.cell T).phi.length (fun i => st'.mult T i - st.mult T i)
      (fun i => P.grad st'.sol T i - P.grad st.sol T i) ≤ 0 :=
    mul_nonpos_of_nonneg_of_nonpos (by linarith) c2
  rw [dist2, dist2, change2]
  simp only [total]
  linarith

end Verif.Bingham
