import Verif.Model.Bingham
import Verif.Lemmas.BinghamLaw
import Mathlib.Tactic.FinCases
import Mathlib.Tactic.IntervalCases
/-!
The augmented Lagrangian iteration: what a pass computes and why it approaches solutions.
-/
noncomputable section
namespace Verif.Bingham
open Finset Spec.Bingham Rigidity Tensor

variable {D : Nat} {U : Type}

theorem half_sqrt : (Real.sqrt 2)⁻¹ * (Real.sqrt 2)⁻¹ = 1 / 2 := by
  rw [← mul_inv, Real.mul_self_sqrt (by norm_num)]
  norm_num

theorem ortho2 : ∀ i < 3, ∀ j < 3, ∑ a, ∑ b, fn (symBasis 2 [1]) i a b * fn (symBasis 2 [1]) j a b = if i = j then (1 : ℝ) else 0 := by
  intro i hi j hj
  have h := half_sqrt
  interval_cases i <;> interval_cases j <;>
    simp [fn, symBasis, List.finRange_succ, Fin.sum_univ_succ, setM, zeroM] <;> linarith

theorem ortho3 : ∀ i < 6, ∀ j < 6, ∑ a, ∑ b, fn (symBasis 3 [1]) i a b * fn (symBasis 3 [1]) j a b = if i = j then (1 : ℝ) else 0 := by
  intro i hi j hj
  have h := half_sqrt
  interval_cases i <;> interval_cases j <;>
    simp [fn, symBasis, List.finRange_succ, Fin.sum_univ_succ, setM, zeroM] <;> linarith

theorem len_eq (h : D = 2 ∨ D = 3) : (symBasis D [1]).length = if D = 2 then 3 else 6 := by
  rcases h with rfl | rfl <;> simp [symBasis, List.finRange_succ]

theorem ortho (h : D = 2 ∨ D = 3) {i j : Nat} (hi : i < (symBasis D [1]).length) (hj : j < (symBasis D [1]).length) :
    ∑ a, ∑ b, fn (symBasis D [1]) i a b * fn (symBasis D [1]) j a b = if i = j then (1 : ℝ) else 0 := by
  rw [len_eq h] at hi hj
  rcases h with rfl | rfl
  · exact ortho2 i hi j hj
  · exact ortho3 i hi j hj

theorem frob_eval (h : D = 2 ∨ D = 3) (a : Nat → ℝ) :
    frobNorm (evalG a (symBasis D [1])) = nrm (symBasis D [1]).length a := by
  rw [frobNorm, nrm, ip]
  congr 1
  set s := (symBasis D [1]).length
  calc ∑ x, ∑ y, evalG a (symBasis D [1]) x y * evalG a (symBasis D [1]) x y
      = ∑ x, ∑ y, ∑ i ∈ range s, ∑ j ∈ range s, a i * a j * (fn (symBasis D [1]) i x y * fn (symBasis D [1]) j x y) := by
        refine sum_congr rfl fun x _ => sum_congr rfl fun y _ => ?_
        rw [evalG, sum_mul_sum]
        exact sum_congr rfl fun i _ => sum_congr rfl fun j _ => by ring
    _ = ∑ i ∈ range s, ∑ j ∈ range s, ∑ x, ∑ y, a i * a j * (fn (symBasis D [1]) i x y * fn (symBasis D [1]) j x y) := by
        have e1 : ∀ x : Fin D, ∑ y, ∑ i ∈ range s, ∑ j ∈ range s,
            a i * a j * (fn (symBasis D [1]) i x y * fn (symBasis D [1]) j x y) =
            ∑ i ∈ range s, ∑ j ∈ range s, ∑ y, a i * a j * (fn (symBasis D [1]) i x y * fn (symBasis D [1]) j x y) := by
          intro x
          rw [sum_comm]
          exact sum_congr rfl fun i _ => sum_comm
        rw [sum_congr rfl fun x _ => e1 x, sum_comm]
        exact sum_congr rfl fun i _ => sum_comm
    _ = ∑ i ∈ range s, ∑ j ∈ range s, a i * a j * (if i = j then 1 else 0) := by
        refine sum_congr rfl fun i hi => sum_congr rfl fun j hj => ?_
        rw [← ortho h (mem_range.1 hi) (mem_range.1 hj), mul_sum]
        exact sum_congr rfl fun x _ => by rw [mul_sum]
    _ = ∑ i ∈ range s, a i * a i := by
        refine sum_congr rfl fun i hi => ?_
        rw [sum_eq_single i (fun j _ hj => by rw [if_neg fun h => hj h.symm, mul_zero]) (fun h => absurd hi h), if_pos rfl,
          mul_one]

section cell
variable {c : Cell D} {w : ℝ} {p : Params} {sig u : Nat → ℝ}

theorem mass_eq (h : Lowest c w) {i j : Nat} (hi : i < c.phi.length) (hj : j < c.phi.length) :
    c.mass i j = if i = j then w else 0 := by
  rw [h.phi] at hi hj
  have : ∀ l : List (ℝ × List (Mat ℝ D)), (∀ q ∈ l, q.2 = symBasis D [1]) →
      (l.map fun q => q.1 * ∑ a, ∑ b, fn q.2 i a b * fn q.2 j a b).sum = (l.map Prod.fst).sum * if i = j then 1 else 0 := by
    intro l
    induction l with
    | nil => intro _; simp
    | cons q l ih =>
      intro hq
      rw [List.map_cons, List.sum_cons, ih fun x hx => hq x (List.mem_cons_of_mem _ hx), hq q List.mem_cons_self,
        ortho h.dim hi hj, List.map_cons, List.sum_cons, add_mul]
  rw [Cell.mass, this _ h.qps, h.weights]
  split <;> simp

theorem mass_mul (h : Lowest c w) (v : Nat → ℝ) {i : Nat} (hi : i < c.phi.length) :
    ∑ j ∈ range c.phi.length, c.mass i j * v j = w * v i := by
  rw [sum_eq_single i (fun j hj hne => by rw [mass_eq h hi (mem_range.1 hj), if_neg fun h => hne h.symm, zero_mul])
    (fun h => absurd (mem_range.2 hi) h), mass_eq h hi hi, if_pos rfl]

theorem massDot_eq (h : Lowest c w) (v : Nat → ℝ) : massDot c v = w * ip c.phi.length v v := by
  rw [massDot, ip, mul_sum]
  exact sum_congr rfl fun i hi => by rw [mass_mul h v (mem_range.1 hi)]; ring

/-- Plastic bound and tolerance. -/
def bound (p : Params) : ℝ := Real.sqrt 2 * p.yield

/-- The tolerance. -/
def slack (p : Params) : ℝ := 1 / 10 ^ 6 * Real.sqrt 2 * p.yield

/-- The auxiliary rate. -/
def rate (p : Params) (s : Nat) (th : Nat → ℝ) : Nat → ℝ :=
  open Classical in
  if bound p + slack p < nrm s th ∧ slack p < nrm s th then shrink p.mu p.alpha (bound p) (nrm s th) th else fun _ => 0

theorem auxiliar_ok (h : Lowest c w) : auxiliar p c sig u = .ok (rate p c.phi.length (theta p c sig u)) := by
  have e : frobNorm (evalG (theta p c sig u) c.phi) = nrm c.phi.length (theta p c sig u) := by
    rw [h.phi]; exact frob_eval h.dim _
  have e2 : vecNorm c.phi.length (theta p c sig u) = nrm c.phi.length (theta p c sig u) := rfl
  rw [auxiliar]
  simp only [e, e2, sub_self, abs_zero]
  rw [if_neg (by norm_num), rate]
  split
  · rename_i h1
    rw [if_pos (show bound p + slack p < _ ∧ slack p < _ from h1)]
    congr 1
    funext i
    rw [shrink, bound, mul_div_assoc]
  · rename_i h1
    rw [if_neg (show ¬ (bound p + slack p < _ ∧ slack p < _) from h1)]

/-- The norm is above the bound but not above the tolerance. -/
def Band (p : Params) (s : Nat) (th : Nat → ℝ) : Prop := bound p < nrm s th ∧ nrm s th ≤ bound p + slack p

theorem bound_nonneg (hy : 0 ≤ p.yield) : 0 ≤ bound p := mul_nonneg (Real.sqrt_nonneg _) hy

theorem slack_eq : slack p = 1 / 10 ^ 6 * bound p := by rw [slack, bound]; ring

theorem rate_cases (hy : 0 ≤ p.yield) (s : Nat) (th : Nat → ℝ) :
    (bound p + slack p < nrm s th ∧ rate p s th = shrink p.mu p.alpha (bound p) (nrm s th) th) ∨
    (nrm s th ≤ bound p + slack p ∧ rate p s th = fun _ => 0) := by
  have hb := bound_nonneg hy
  rw [rate]
  split
  · rename_i h; exact .inl ⟨h.1, rfl⟩
  · rename_i h
    refine .inr ⟨?_, rfl⟩
    by_contra hc
    exact h ⟨not_le.1 hc, by linarith [not_le.1 hc]⟩

open Classical in
/-- What the auxiliary rate leaves is a plastic stress; in the band it may exceed the bound by the tolerance. -/
theorem rate_plastic (h : 0 < p.mu + p.alpha) (hy : 0 ≤ p.yield) (s : Nat) (th : Nat → ℝ) :
    Plastic (bound p) (if Band p s th then bound p + slack p else bound p) s
      (fun i => th i - 2 * p.alpha * rate p s th i - 2 * p.mu * rate p s th i) (rate p s th) := by
  have hb := bound_nonneg hy
  have hs : 0 ≤ slack p := by rw [slack_eq]; positivity
  rcases rate_cases hy s th with ⟨h1, h2⟩ | ⟨h1, h2⟩
  · rw [h2, if_neg fun hB : Band p s th => absurd hB.2 (not_le.2 h1)]
    exact (shrink_plastic h hb (by linarith)).1
  · rw [h2]
    have e : ∀ i < s, th i - 2 * p.alpha * 0 - 2 * p.mu * 0 = th i := fun i _ => by ring
    refine ⟨?_, ?_⟩
    · rw [nrm_congr e]
      split
      · exact h1
      · rename_i hn
        by_contra hc
        exact hn ⟨not_le.1 hc, h1⟩
    · rw [nrm_zero, mul_zero]
      simp [ip]

theorem rate_band (hy : 0 ≤ p.yield) {s : Nat} {th : Nat → ℝ} (h : Band p s th) : rate p s th = fun _ => 0 := by
  rcases rate_cases hy s th with ⟨h1, -⟩ | ⟨-, h2⟩
  · exact absurd h.2 (not_le.2 h1)
  · exact h2

end cell

section pass
variable {P : Problem D U} {w : Nat → ℝ} {st : State U}

theorem auxTo_ok (h : ∀ T < P.N, Lowest (P.cell T) (w T)) : ∀ k ≤ P.N, ∃ g, auxTo P st k = .ok g ∧
    ∀ T < k, g T = rate P.prm (P.cell T).phi.length (theta P.prm (P.cell T) (st.mult T) (P.take st.sol T))
  | 0, _ => ⟨_, rfl, fun T hT => absurd hT (Nat.not_lt_zero T)⟩
  | k + 1, hk => by
    obtain ⟨g, h1, h2⟩ := auxTo_ok h k (by omega)
    refine ⟨_, by rw [auxTo, h1, Outcome.bind_ok, auxiliar_ok (h k (by omega)), Outcome.bind_ok], ?_⟩
    intro T hT
    funext i
    by_cases hTk : T = k
    · subst hTk; simp
    · simp only [if_neg hTk]
      rw [h2 T (by omega)]

/-- Auxiliary rates of a state. -/
def gam (P : Problem D U) (st : State U) (T : Nat) : Nat → ℝ :=
  rate P.prm (P.cell T).phi.length (theta P.prm (P.cell T) (st.mult T) (P.take st.sol T))

/-- Sums over the cells. -/
def total (P : Problem D U) (w : Nat → ℝ) (a b : Nat → Nat → ℝ) : ℝ :=
  ∑ T ∈ range P.N, w T * ip (P.cell T).phi.length (a T) (b T)

theorem residues_eq (h : ∀ T < P.N, Lowest (P.cell T) (w T)) (a b : Nat → Nat → ℝ) :
    (residues P a b).2.1 = total P w a a ∧ (residues P a b).2.2 = total P w b b ∧
    (residues P a b).1 = ∑ T ∈ range P.N, ∑ T' ∈ range (T + 1),
      (w T' * ip (P.cell T').phi.length (a T') (a T') + w T' * ip (P.cell T').phi.length (b T') (b T')) := by
  rw [residues, total, total]
  have : ∀ k ≤ P.N, (List.range k).foldl (fun (r : ℝ × ℝ × ℝ) T =>
      (r.1 + (r.2.1 + massDot (P.cell T) (a T) + (r.2.2 + massDot (P.cell T) (b T))),
        r.2.1 + massDot (P.cell T) (a T), r.2.2 + massDot (P.cell T) (b T))) (0, 0, 0) =
      (∑ T ∈ range k, ∑ T' ∈ range (T + 1),
        (w T' * ip (P.cell T').phi.length (a T') (a T') + w T' * ip (P.cell T').phi.length (b T') (b T')),
       ∑ T ∈ range k, w T * ip (P.cell T).phi.length (a T) (a T),
       ∑ T ∈ range k, w T * ip (P.cell T).phi.length (b T) (b T)) := by
    intro k
    induction k with
    | zero => intro _; rfl
    | succ k ih =>
      intro hk
      rw [List.range_succ, List.foldl_append, ih (by omega)]
      simp only [List.foldl_cons, List.foldl_nil]
      rw [massDot_eq (h k (by omega)), massDot_eq (h k (by omega)), sum_range_succ _ k, sum_range_succ _ k, sum_range_succ _ k,
        sum_range_succ _ k]
      rw [sum_add_distrib]
      ring_nf
  have h2 := this P.N le_rfl
  refine ⟨?_, ?_, ?_⟩
  · exact congrArg (fun x => x.2.1) h2
  · exact congrArg (fun x => x.2.2) h2
  · exact congrArg (fun x => x.1) h2

/-- What a pass gives. -/
theorem step_ok (h : ∀ T < P.N, Lowest (P.cell T) (w T)) : ∃ st' res r0 r, step P st = .ok (st', res, r0) ∧ st'.sol = P.solve r ∧
    (∀ T < P.N, r T = localRhs P.prm (P.cell T) (st.mult T) (gam P st T)) ∧
    (∀ T < P.N, ∀ i, st'.mult T i = st.mult T i + 2 * P.prm.alpha * (P.grad st'.sol T i - gam P st T i)) ∧
    res = Real.sqrt (∑ T ∈ range P.N, ∑ T' ∈ range (T + 1),
      (w T' * ip (P.cell T').phi.length (fun i => st'.mult T' i - st.mult T' i) (fun i => st'.mult T' i - st.mult T' i) +
       P.prm.alpha ^ 2 * (w T' * ip (P.cell T').phi.length (fun i => P.grad st'.sol T' i - P.grad st.sol T' i)
        (fun i => P.grad st'.sol T' i - P.grad st.sol T' i)))) ∧
    r0 = Real.sqrt (total P w (fun T i => st'.mult T i - st.mult T i) (fun T i => st'.mult T i - st.mult T i)) := by
  obtain ⟨g, h1, h2⟩ := auxTo_ok (st := st) h P.N le_rfl
  refine ⟨_, _, _, _, by rw [step, h1, Outcome.bind_ok], rfl, fun T hT => by rw [h2 T hT, gam], fun T hT i => ?_, ?_, ?_⟩
  · exact congrArg (fun x => st.mult T i + 2 * P.prm.alpha * (P.grad _ T i - x)) (congrFun (h2 T hT) i)
  · rw [(residues_eq h _ _).2.2]
    congr 1
    refine sum_congr rfl fun T _ => sum_congr rfl fun T' _ => ?_
    simp only [add_sub_cancel_left]
    congr 1
    rw [ip_smul, ip_smul_right]
    ring
  · rw [(residues_eq h _ _).1]
    congr 1
    exact sum_congr rfl fun T _ => by simp

end pass

end Verif.Bingham
