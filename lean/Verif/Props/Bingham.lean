import Verif.Lemmas.BinghamStop
/-!
C167 and C168: augmented Lagrangian iteration for Bingham flow.
-/
noncomputable section
namespace Verif.Props.Bingham
open Verif Finset Spec.Bingham Verif.Bingham

variable {D : Nat} {U : Type}

/-! ### Example data: cells with one unknown -/

/-- A cell of measure one whose unknown is the first component of the rate. -/
def exCell : Cell 2 :=
  ⟨1, fun i _ => if i = 0 then 1 else 0, fun _ _ => 1, fun _ _ => 0, Rigidity.symBasis 2 [1], [(1, Rigidity.symBasis 2 [1])]⟩

theorem exLen : (Rigidity.symBasis 2 [1]).length = 3 := by simpa using len_eq (D := 2) (.inl rfl)

theorem exLowest : Lowest exCell 1 := by
  refine ⟨.inl rfl, rfl, ?_, by simp [exCell], one_pos, ?_, fun _ => by simp [exCell]⟩
  · intro q hq
    rw [exCell, List.mem_singleton] at hq
    rw [hq]
  · intro i hi j hj
    have m : exCell.mass 0 0 = 1 := by
      have := ortho2 0 (by norm_num) 0 (by norm_num)
      simp only [Cell.mass, exCell, List.map_cons, List.map_nil, List.sum_cons, List.sum_nil, this]
      norm_num
    have hl : exCell.phi.length = 3 := exLen
    rw [hl]
    simp only [sum_range_succ, range_zero, sum_empty]
    simp [exCell] at *
    simp [m]

/-- Two cells, all velocities prescribed. -/
def exProblem (yield : ℝ) : Problem 2 Unit := ⟨⟨1, 1, yield⟩, 2, fun _ => exCell, fun _ _ _ => 1, fun _ => ()⟩

/-- The only test velocity is zero. -/
def exTest (v : Nat → Nat → ℝ) : Prop := ∀ T i, v T i = 0

theorem exSolves (y : ℝ) : (exProblem y).Solves exTest := by
  refine ⟨?_, ?_⟩
  · intro r v hv
    have : v = fun _ _ => 0 := funext fun T => funext fun i => hv T i
    simp [this]
  · intro r r' T i
    simp [exProblem]

theorem exNrm {x : ℝ} (hx : 0 ≤ x) : nrm 3 (fun i => if i = 0 then x else 0) = x := by
  rw [nrm, ip]
  simp only [sum_range_succ, range_zero, sum_empty]
  norm_num
  exact Real.sqrt_mul_self hx

theorem exTheta (y x : ℝ) {st : State Unit} {T : Nat} (hm : ∀ i, st.mult T i = if i = 0 then x else 0) :
    theta (exProblem y).prm ((exProblem y).cell T) (st.mult T) ((exProblem y).take st.sol T) = fun i => if i = 0 then x + 2 else 0 := by
  funext i
  by_cases hi : i = 0 <;> simp [theta, Rigidity.mulVec, exProblem, exCell, hm, hi]

theorem exGrad (y : ℝ) (u : Unit) (T i : Nat) : (exProblem y).grad u T i = if i = 0 then 1 else 0 := by
  simp [Problem.grad, Rigidity.mulVec, exProblem, exCell]

/-- Stress of the law for the prescribed velocities is kept by a pass, which reports zero. -/
theorem exFix {st st' : State Unit} {e : ℝ × ℝ} (hm : ∀ T < 2, ∀ i, st.mult T i = if i = 0 then 2 + Real.sqrt 2 else 0)
    (h1 : step (exProblem 1) st = .ok (st', e)) :
    e.1 = 0 ∧ (∀ T < 2, ∀ i, st'.mult T i = if i = 0 then 2 + Real.sqrt 2 else 0) ∧
    ∀ T < 2, ¬ Above (Real.sqrt 2 * 1) 3 (fun i => st.mult T i + 2 * 1 * strain 1 exCell.G ((exProblem 1).take st.sol T) i) := by
  obtain ⟨res, r0⟩ := e
  obtain ⟨r, -, -, h4, h5, -⟩ := step_eq (w := fun _ => 1) (fun _ _ => exLowest) h1
  have hs : (1 : ℝ) ≤ Real.sqrt 2 := Real.one_le_sqrt.2 (by norm_num)
  have hs2 : Real.sqrt 2 ≤ 2 := Real.sqrt_le_iff.2 (by norm_num)
  have hl : exCell.phi.length = 3 := exLen
  have hn : nrm 3 (fun i => if i = 0 then 2 + Real.sqrt 2 + 2 else 0) = 2 + Real.sqrt 2 + 2 := exNrm (by linarith)
  have hg : ∀ T < 2, ∀ i, gam (exProblem 1) st T i = if i = 0 then 1 else 0 := by
    intro T hT i
    rw [gam, exTheta 1 _ (hm T hT)]
    show rate ⟨1, 1, 1⟩ exCell.phi.length _ i = _
    rw [hl]
    rcases rate_cases (p := ⟨1, 1, 1⟩) (by norm_num) 3 (fun i => if i = 0 then 2 + Real.sqrt 2 + 2 else 0) with ⟨-, k⟩ | ⟨k, -⟩
    · rw [k, shrink, hn, bound]
      by_cases hi : i = 0
      · simp only [hi, if_true]
        field_simp
        ring
      · simp [hi]
    · rw [hn, slack_eq, bound] at k
      norm_num at k
      linarith
  have hm' : ∀ T < 2, ∀ i, st'.mult T i = st.mult T i := fun T hT i => by
    rw [h4 T hT i, exGrad, hg T hT i, sub_self, mul_zero, add_zero]
  refine ⟨?_, fun T hT i => by rw [hm' T hT i, hm T hT i], fun T hT hA => ?_⟩
  · show res = 0
    rw [h5, sum_eq_zero, Real.sqrt_zero]
    intro T hT
    refine sum_eq_zero fun T' hT' => ?_
    have hT2 : T' < 2 := by
      have := mem_range.1 hT; have := mem_range.1 hT'; have : (exProblem 1).N = 2 := rfl; omega
    simp [local2, hm' T' hT2, ip]
  · have e : (fun i => st.mult T i + 2 * 1 * strain 1 exCell.G ((exProblem 1).take st.sol T) i) =
        fun i => if i = 0 then 2 + Real.sqrt 2 + 2 else 0 := exTheta 1 _ (hm T hT)
    rw [e, Above, hn] at hA
    have := hA.2
    norm_num at this
    linarith

theorem exStep (y : ℝ) (st : State Unit) : ∃ st' e, step (exProblem y) st = .ok (st', e) := by
  obtain ⟨st', res, r0, -, h, -⟩ := step_ok (P := exProblem y) (w := fun _ => 1) (st := st) fun _ _ => exLowest
  exact ⟨_, _, h⟩

/-- Stress of the law. -/
def exStress : State Unit := ⟨(), fun _ i => if i = 0 then 2 + Real.sqrt 2 else 0⟩

/-- Velocity and stress of the example solve the discrete problem. -/
theorem exSolution : (∀ T < 2, Law 1 (Real.sqrt 2 * 1) (Real.sqrt 2 * 1) 3 (exStress.mult T) (strain 1 exCell.G fun _ => 1)) ∧
    Balance 2 (fun _ => 1) (fun _ => 3) (fun _ => 1) (fun _ => exCell.G) (fun _ => exCell.stab) 1 exTest (fun _ _ => 1) exStress.mult ∧
    ∀ r, exTest fun T i => (exProblem 1).take ((exProblem 1).solve r) T i - 1 := by
  have e : strain 1 exCell.G (fun _ => 1) = fun i => if i = 0 then 1 else 0 := by
    funext i
    simp [strain, exCell]
  refine ⟨fun T _ => ⟨?_, ?_⟩, ?_, ?_⟩
  · intro hz
    have := hz 0 (by norm_num)
    simp [e] at this
  · intro _ i _
    rw [e, exNrm one_pos.le]
    by_cases hi : i = 0 <;> simp [exStress, hi]
  · intro v hv
    have : v = fun _ _ => 0 := funext fun T => funext fun i => hv T i
    simp [this, ip, strain, form]
  · intro r T i
    simp [exProblem]

/-! ### The auxiliary rate -/

section cell
variable {c : Cell D} {w : ℝ} {p : Params} {sig u : Nat → ℝ}

/-- The auxiliary rate of a cell exists, and if the norm of `stress + 2 alpha Gu` is not just above the plastic bound, it is the
minimizer of the energy: every other rate has a larger energy by at least a multiple of the squared distance. -/
theorem c167_minimizer_partial (h : Lowest c w) (hma : 0 < p.mu + p.alpha) (hy : 0 ≤ p.yield) : ∃ g, auxiliar p c sig u = .ok g ∧
    (¬ Above (Real.sqrt 2 * p.yield) c.phi.length (fun i => sig i + 2 * p.alpha * strain c.n c.G u i) → ∀ d,
      energy p.mu p.alpha (Real.sqrt 2 * p.yield) c.phi.length (fun i => sig i + 2 * p.alpha * strain c.n c.G u i) g +
        (p.mu + p.alpha) * ip c.phi.length (fun i => d i - g i) (fun i => d i - g i) ≤
      energy p.mu p.alpha (Real.sqrt 2 * p.yield) c.phi.length (fun i => sig i + 2 * p.alpha * strain c.n c.G u i) d) := by
  classical
  refine ⟨_, auxiliar_ok h, fun hn d => ?_⟩
  have hb : ¬ Band p c.phi.length (theta p c sig u) := fun hb => hn (band_above.1 hb)
  have hp := rate_plastic hma hy c.phi.length (theta p c sig u)
  rw [if_neg hb] at hp
  exact energy_grows (th := theta p c sig u) (fun i _ => by ring) hp d

example : Lowest exCell 1 ∧ ¬ Above (Real.sqrt 2 * 1) 3 (fun _ => 0) := by
  refine ⟨exLowest, fun h => ?_⟩
  have := h.1
  rw [nrm_zero] at this
  linarith [Real.sqrt_nonneg 2]

/-- Just above the bound the auxiliary rate is zero, which is not the minimizer. -/
theorem c167_tolerance_violated : ∃ sig d : Nat → ℝ, ∃ g, auxiliar ⟨1, 1, 1⟩ exCell sig (fun _ => 0) = .ok g ∧
    energy 1 1 (Real.sqrt 2 * 1) 3 sig d < energy 1 1 (Real.sqrt 2 * 1) 3 sig g := by
  have hs : (0 : ℝ) < Real.sqrt 2 := Real.sqrt_pos.2 (by norm_num)
  have hs1 : (1 : ℝ) ≤ Real.sqrt 2 := Real.one_le_sqrt.2 (by norm_num)
  set t : ℝ := Real.sqrt 2 * (1 + 5 / 10 ^ 7) with ht
  have ht0 : 0 < t := by positivity
  have n1 : ∀ x : ℝ, 0 ≤ x → nrm 3 (fun i => if i = 0 then x else 0) = x := fun _ => exNrm
  refine ⟨fun i => if i = 0 then t else 0, fun i => if i = 0 then 1 / 10 ^ 7 else 0, _, auxiliar_ok exLowest, ?_⟩
  have hth : theta ⟨1, 1, 1⟩ exCell (fun i => if i = 0 then t else 0) (fun _ => 0) = fun i => if i = 0 then t else 0 := by
    funext i
    simp [theta, Rigidity.mulVec]
  have hl : exCell.phi.length = 3 := exLen
  have hz : rate ⟨1, 1, 1⟩ 3 (fun i => if i = 0 then t else 0) = fun _ => 0 := by
    refine rate_band (by norm_num) (band_above.2 ⟨?_, ?_⟩)
    · rw [n1 t ht0.le, ht]; nlinarith
    · rw [n1 t ht0.le, ht]; nlinarith
  rw [hth, hl, hz, energy, energy, nrm_zero, n1 _ (by norm_num)]
  simp only [ip, sum_range_succ, range_zero, sum_empty]
  norm_num [ht]
  nlinarith

example : Above (Real.sqrt 2 * 1) 1 (fun _ => Real.sqrt 2 * (1 + 5 / 10 ^ 7)) := by
  have hs : (0 : ℝ) < Real.sqrt 2 := Real.sqrt_pos.2 (by norm_num)
  have n : nrm 1 (fun _ => Real.sqrt 2 * (1 + 5 / 10 ^ 7)) = Real.sqrt 2 * (1 + 5 / 10 ^ 7) := by
    rw [nrm, ip]
    simp only [sum_range_succ, range_zero, sum_empty, zero_add]
    exact Real.sqrt_mul_self (by positivity)
  rw [Above, n]
  constructor <;> nlinarith

end cell

/-! ### Converged states -/

section pass
variable {P : Problem D U} {w : Nat → ℝ} {W : (Nat → Nat → ℝ) → Prop} {st st' : State U} {res r0 : ℝ}

/-- If a pass reports zero, the velocity and the stress satisfy Bingham's law in every cell, with a bound on the stress of
cells at rest that is larger by a factor of `1 + 10⁻⁶`, and balance of momentum. -/
theorem c167_converged (h : ∀ T < P.N, Lowest (P.cell T) (w T)) (hs : P.Solves W) (hmu : 0 < P.prm.mu) (hal : 0 < P.prm.alpha)
    (hy : 0 ≤ P.prm.yield) (h1 : step P st = .ok (st', 0, r0)) :
    (∀ T < P.N, Law P.prm.mu (Real.sqrt 2 * P.prm.yield) ((1 + 1 / 10 ^ 6) * (Real.sqrt 2 * P.prm.yield)) (P.cell T).phi.length
      (st'.mult T) (strain (P.cell T).n (P.cell T).G (P.take st'.sol T))) ∧
    Balance P.N w (fun T => (P.cell T).phi.length) (fun T => (P.cell T).n) (fun T => (P.cell T).G) (fun T => (P.cell T).stab)
      P.prm.mu W (P.take st'.sol) st'.mult :=
  ⟨fun T hT => by
    have := converged_law h hmu hal hy h1 T hT
    rwa [show bound P.prm + slack P.prm = (1 + 1 / 10 ^ 6) * (Real.sqrt 2 * P.prm.yield) by rw [slack_eq, bound]; ring] at this,
   (step_facts h hs h1).1⟩

/-- Two cells that flow, with the stress of the law. -/
example : ∃ st st' r0, step (exProblem 1) st = .ok (st', 0, r0) := by
  obtain ⟨st', ⟨res, r0⟩, h⟩ := exStep 1 exStress
  have h0 : res = 0 := (exFix (fun _ _ _ => rfl) h).1
  exact ⟨_, _, _, by rw [h, h0]⟩

end pass

/-! ### Residuals and convergence -/

section iteration
variable {P : Problem D U} {w : Nat → ℝ} {W : (Nat → Nat → ℝ) → Prop} {st st' : State U} {res r0 : ℝ}

/-- What a pass reports: the squared changes of stress and strain of a cell count once for this cell and once for every later
one. It is at least the norm of the changes and at most that times the square root of the number of cells. The second
number is the norm of the change of stress. -/
theorem c168_residual_partial (h : ∀ T < P.N, Lowest (P.cell T) (w T)) (h1 : step P st = .ok (st', res, r0)) :
    res ^ 2 = ∑ T ∈ range P.N, (P.N - T : ℝ) * (w T * (ip (P.cell T).phi.length (fun i => st'.mult T i - st.mult T i)
        (fun i => st'.mult T i - st.mult T i) +
      P.prm.alpha ^ 2 * ip (P.cell T).phi.length
        (fun i => strain (P.cell T).n (P.cell T).G (P.take st'.sol T) i - strain (P.cell T).n (P.cell T).G (P.take st.sol T) i)
        (fun i => strain (P.cell T).n (P.cell T).G (P.take st'.sol T) i - strain (P.cell T).n (P.cell T).G (P.take st.sol T) i))) ∧
    sq P.N w (fun T => (P.cell T).phi.length) (fun T i => st'.mult T i - st.mult T i) +
      P.prm.alpha ^ 2 * sq P.N w (fun T => (P.cell T).phi.length)
        (fun T i => strain (P.cell T).n (P.cell T).G (P.take st'.sol T) i - strain (P.cell T).n (P.cell T).G (P.take st.sol T) i) ≤
      res ^ 2 ∧
    res ^ 2 ≤ P.N * (sq P.N w (fun T => (P.cell T).phi.length) (fun T i => st'.mult T i - st.mult T i) +
      P.prm.alpha ^ 2 * sq P.N w (fun T => (P.cell T).phi.length)
        (fun T i => strain (P.cell T).n (P.cell T).G (P.take st'.sol T) i - strain (P.cell T).n (P.cell T).G (P.take st.sol T) i)) ∧
    r0 ^ 2 = sq P.N w (fun T => (P.cell T).phi.length) (fun T i => st'.mult T i - st.mult T i) ∧ 0 ≤ res ∧ 0 ≤ r0 :=
  residual_facts h h1

example : ∃ st' res r0, step (exProblem 1) ⟨(), fun _ _ => 0⟩ = .ok (st', res, r0) := by
  obtain ⟨st', res, r0, -, h, -⟩ := step_ok (P := exProblem 1) (w := fun _ => 1) (st := ⟨(), fun _ _ => 0⟩) fun _ _ => exLowest
  exact ⟨_, _, _, h⟩

/-- It is not the norm of the changes: with two equal cells in which the stress changes by the same amount, its square is three
times instead of twice that of a cell. -/
theorem c168_residual_violated : ∃ (st st' : State Unit) (r0 a : ℝ), 0 < a ∧
    step (exProblem 10) st = .ok (st', Real.sqrt (3 * a), r0) ∧
    sq 2 (fun _ => 1) (fun _ => 3) (fun T i => st'.mult T i - st.mult T i) +
      1 ^ 2 * sq 2 (fun _ => 1) (fun _ => 3) (fun T i =>
        strain 1 exCell.G ((exProblem 10).take st'.sol T) i - strain 1 exCell.G ((exProblem 10).take st.sol T) i) = 2 * a :=
 by
  obtain ⟨st', ⟨res, r0⟩, h⟩ := exStep 10 ⟨(), fun _ _ => 0⟩
  obtain ⟨r, -, -, h4, h5, -⟩ := step_eq (w := fun _ => 1) (fun _ _ => exLowest) h
  have hs : (1 : ℝ) ≤ Real.sqrt 2 := Real.one_le_sqrt.2 (by norm_num)
  have hl : exCell.phi.length = 3 := exLen
  have hg : ∀ T < 2, ∀ i, gam (exProblem 10) ⟨(), fun _ _ => 0⟩ T i = 0 := by
    intro T hT i
    rw [gam, exTheta 10 0 (fun i => by simp)]
    show rate ⟨1, 1, 10⟩ exCell.phi.length _ i = _
    rw [hl]
    rcases rate_cases (p := ⟨1, 1, 10⟩) (by norm_num) 3 (fun i => if i = 0 then 0 + 2 else 0) with ⟨k, -⟩ | ⟨-, k⟩
    · rw [exNrm (by norm_num), slack_eq, bound] at k
      norm_num at k
      linarith
    · rw [k]
  have hm' : ∀ T < 2, ∀ i, st'.mult T i - 0 = if i = 0 then 2 else 0 := fun T hT i => by
    rw [h4 T hT i, exGrad, hg T hT i]
    by_cases hi : i = 0 <;> simp [hi, exProblem]
  have hd : ∀ T i, strain 1 exCell.G ((exProblem 10).take st'.sol T) i - strain 1 exCell.G ((exProblem 10).take () T) i = 0 :=
    fun T i => sub_self _
  have hL : ∀ T < 2, local2 (exProblem 10) (fun _ => 1) ⟨(), fun _ _ => 0⟩ st' T = 4 := by
    intro T hT
    show 1 * (ip exCell.phi.length (fun i => st'.mult T i - 0) (fun i => st'.mult T i - 0) + 1 ^ 2 * ip exCell.phi.length
      (fun i => strain 1 exCell.G ((exProblem 10).take st'.sol T) i - strain 1 exCell.G ((exProblem 10).take () T) i)
      (fun i => strain 1 exCell.G ((exProblem 10).take st'.sol T) i - strain 1 exCell.G ((exProblem 10).take () T) i)) = 4
    rw [hl]
    simp only [hm' T hT, hd, ip, sum_range_succ, range_zero, sum_empty]
    norm_num
  refine ⟨⟨(), fun _ _ => 0⟩, st', r0, 4, by norm_num, ?_, ?_⟩
  · rw [h, h5]
    show Outcome.ok (st', Real.sqrt (∑ T ∈ range 2, _), r0) = _
    simp only [sum_range_succ, range_zero, sum_empty, hL 0 (by norm_num), hL 1 (by norm_num)]
    norm_num
  · simp only [Spec.Bingham.sq, hd]
    simp only [sum_range_succ, range_zero, sum_empty, hm' 0 (by norm_num), hm' 1 (by norm_num), ip]
    norm_num

example : (exProblem 10).N = 2 := rfl

/-- A pass after another brings stress and strain closer to every solution of the discrete problem, by at least their
squared changes and up to an amount that only cells with a norm just above the bound contribute. -/
theorem c168_decrease (h : ∀ T < P.N, Lowest (P.cell T) (w T)) (hs : P.Solves W) (hmu : 0 < P.prm.mu) (hal : 0 < P.prm.alpha)
    (hy : 0 ≤ P.prm.yield) {us ss : Nat → Nat → ℝ}
    (hl : ∀ T < P.N, Law P.prm.mu (Real.sqrt 2 * P.prm.yield) (Real.sqrt 2 * P.prm.yield) (P.cell T).phi.length
      (ss T) (strain (P.cell T).n (P.cell T).G (us T)))
    (hb : Balance P.N w (fun T => (P.cell T).phi.length) (fun T => (P.cell T).n) (fun T => (P.cell T).G) (fun T => (P.cell T).stab)
      P.prm.mu W us ss)
    (hW : ∀ r, W fun T i => P.take (P.solve r) T i - us T i)
    {st0 : State U} {res0 r00 : ℝ} (h0 : step P st0 = .ok (st, res0, r00)) (h1 : step P st = .ok (st', res, r0)) (q : Nat → Prop)
    [DecidablePred q] (hq : ∀ T < P.N, Above (Real.sqrt 2 * P.prm.yield) (P.cell T).phi.length
      (fun i => st.mult T i + 2 * P.prm.alpha * strain (P.cell T).n (P.cell T).G (P.take st.sol T) i) → q T) :
    sq P.N w (fun T => (P.cell T).phi.length) (fun T i => st'.mult T i - ss T i) +
      (2 * P.prm.alpha) ^ 2 * sq P.N w (fun T => (P.cell T).phi.length) (fun T i =>
        strain (P.cell T).n (P.cell T).G (P.take st'.sol T) i - strain (P.cell T).n (P.cell T).G (us T) i) +
      (sq P.N w (fun T => (P.cell T).phi.length) (fun T i => st'.mult T i - st.mult T i) +
      (2 * P.prm.alpha) ^ 2 * sq P.N w (fun T => (P.cell T).phi.length) (fun T i =>
        strain (P.cell T).n (P.cell T).G (P.take st'.sol T) i - strain (P.cell T).n (P.cell T).G (P.take st.sol T) i)) ≤
    sq P.N w (fun T => (P.cell T).phi.length) (fun T i => st.mult T i - ss T i) +
      (2 * P.prm.alpha) ^ 2 * sq P.N w (fun T => (P.cell T).phi.length) (fun T i =>
        strain (P.cell T).n (P.cell T).G (P.take st.sol T) i - strain (P.cell T).n (P.cell T).G (us T) i) +
      P.prm.alpha * (1 / 10 ^ 6 * (Real.sqrt 2 * P.prm.yield)) ^ 2 / (2 * P.prm.mu) *
        ∑ T ∈ range P.N, if q T then w T else 0 :=
  step_decrease h hs hmu hal hy hl hb hW h0 h1 q hq

/-- The data of the example have a solution. -/
example : ∃ us ss : Nat → Nat → ℝ,
    (∀ T < 2, Law 1 (Real.sqrt 2 * 1) (Real.sqrt 2 * 1) 3 (ss T) (strain 1 exCell.G (us T))) ∧
    Balance 2 (fun _ => 1) (fun _ => 3) (fun _ => 1) (fun _ => exCell.G) (fun _ => exCell.stab) 1 exTest us ss ∧
    ∀ r, exTest fun T i => (exProblem 1).take ((exProblem 1).solve r) T i - us T i := ⟨_, _, exSolution⟩

/-- If the norm is never just above the bound, the loop stops: it needs at most as many passes as make the tolerance squared
times their number exceed the squared distance after the first pass to any solution, times the number of cells. -/
theorem c168_stops_partial (h : ∀ T < P.N, Lowest (P.cell T) (w T)) (hs : P.Solves W) (hmu : 0 < P.prm.mu)
    (hal : 0 < P.prm.alpha) (hy : 0 ≤ P.prm.yield) {us ss : Nat → Nat → ℝ}
    (hl : ∀ T < P.N, Law P.prm.mu (Real.sqrt 2 * P.prm.yield) (Real.sqrt 2 * P.prm.yield) (P.cell T).phi.length
      (ss T) (strain (P.cell T).n (P.cell T).G (us T)))
    (hb : Balance P.N w (fun T => (P.cell T).phi.length) (fun T => (P.cell T).n) (fun T => (P.cell T).G) (fun T => (P.cell T).stab)
      P.prm.mu W us ss)
    (hW : ∀ r, W fun T i => P.take (P.solve r) T i - us T i) {s : Nat → State U} {e : Nat → ℝ × ℝ}
    (h1 : ∀ n, step P (s n) = .ok (s (n + 1), e n))
    (hq : ∀ n, ∀ T < P.N, ¬ Above (Real.sqrt 2 * P.prm.yield) (P.cell T).phi.length
      (fun i => (s n).mult T i + 2 * P.prm.alpha * strain (P.cell T).n (P.cell T).G (P.take (s n).sol T) i))
    (hN : ∀ n, (e n).1 < 100000) (k : Nat)
    (hk : P.N * (sq P.N w (fun T => (P.cell T).phi.length) (fun T i => (s 1).mult T i - ss T i) +
      (2 * P.prm.alpha) ^ 2 * sq P.N w (fun T => (P.cell T).phi.length) (fun T i =>
        strain (P.cell T).n (P.cell T).G (P.take (s 1).sol T) i - strain (P.cell T).n (P.cell T).G (us T) i)) <
      k * (1 / 10 ^ 8) ^ 2) :
    ∃ n, n ≤ k ∧ loop P (k + 1) (s 0) = .ok (true, s (n + 1)) ∧ (e n).1 < 1 / 10 ^ 8 :=
  loop_stops h hs hmu hal hy hl hb hW h1 hq hN k hk

/-- The hypotheses hold together: passes that start with the stress of the law. -/
example : ∃ n, n ≤ 1 ∧ ∃ st, loop (exProblem 1) 2 exStress = .ok (true, st) := by
  choose f e hf using exStep 1
  have hst : ∀ n, step (exProblem 1) (f^[n] exStress) = .ok (f^[n + 1] exStress, e (f^[n] exStress)) := fun n => by
    rw [Function.iterate_succ_apply']; exact hf _
  have hm : ∀ n, ∀ T < 2, ∀ i, (f^[n] exStress).mult T i = if i = 0 then 2 + Real.sqrt 2 else 0 := by
    intro n
    induction n with
    | zero => intro T _ i; rfl
    | succ n ih => exact (exFix ih (hst n)).2.1
  obtain ⟨hl, hb, hW⟩ := exSolution
  have hlen : exCell.phi.length = 3 := exLen
  obtain ⟨n, h1, h2, -⟩ := c168_stops_partial (P := exProblem 1) (w := fun _ => 1) (W := exTest) (us := fun _ _ => 1)
    (ss := exStress.mult) (s := fun n => f^[n] exStress) (e := fun n => e (f^[n] exStress)) (fun _ _ => exLowest) (exSolves 1)
    one_pos one_pos one_pos.le (fun T hT => by show Law _ _ _ exCell.phi.length _ _; rw [hlen]; exact hl T hT)
    (by show Balance _ _ (fun _ => exCell.phi.length) _ _ _ _ _ _ _; rw [hlen]; exact hb) hW hst
    (fun n T hT => by show ¬ Above _ exCell.phi.length _; rw [hlen]; exact (exFix (hm n) (hst n)).2.2 T hT)
    (fun n => by rw [(exFix (hm n) (hst n)).1]; norm_num) 1 (by
      have z1 : ∀ T < 2, ∀ i, (f^[1] exStress).mult T i - exStress.mult T i = 0 := fun T hT i => by
        rw [hm 1 T hT i]; exact sub_self _
      show ((2 : Nat) : ℝ) * (sq 2 (fun _ => 1) _ (fun T i => (f^[1] exStress).mult T i - exStress.mult T i) + (2 * 1) ^ 2 *
        sq 2 (fun _ => 1) _ fun T i => strain 1 exCell.G (fun _ => 1) i - strain 1 exCell.G (fun _ => 1) i) < _
      simp only [Spec.Bingham.sq, sum_range_succ, range_zero, sum_empty, z1 0 (by norm_num), z1 1 (by norm_num), sub_self, ip]
      norm_num)
  exact ⟨n, h1, _, h2⟩

end iteration

end Verif.Props.Bingham
