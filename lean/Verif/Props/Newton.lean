import Verif.Lemmas.Newton
/-!
C107: the Newton step. C108: Newmark's scheme. C109: the time loop.
-/
namespace Verif.Props.Newton
open Verif.Newton Verif.TimeSteps Verif.Spec Verif.Lemmas.Newton

section
variable {K : Type} [Field K] [LinearOrder K] {S : Type}

/-- C107: a step that converges after at least one iteration stores an assembled state; if its norms are finite, the
internal forces are not zero and the displacement is not tiny, the increment and the residual are at most `eps` times
the displacement and the internal forces. -/
theorem c107_converged_partial [IsStrictOrderedRing K] (ops : Iteration K S) (eps : K) (iterMax : Int) (old new : S)
    (n : Nat) (h : compute ops eps iterMax old = .ok (true, new, n)) (hn : 0 < n) {u r f d : K}
    (hnorm : ops.norms new = ⟨.fin u, .fin r, .fin f, .fin d⟩) (hu : 10 / 10 ^ 15 < u) (hf : 0 < f) :
    (∃ s0, ops.assemble s0 = .ok (some new)) ∧ d ≤ eps * u ∧ r ≤ eps * f := by
  unfold compute at h
  rcases hs : stepLoop ops eps (NewtonParams.toSize iterMax) 0 old with x | _ | _
  · rw [hs] at h
    simp only [Outcome.bind_ok, Outcome.ok.injEq, Prod.mk.injEq] at h
    obtain ⟨h1, h2, h3⟩ := h
    obtain ⟨_, _, hc, _⟩ := stepLoop_spec ops eps _ 0 old hs
    obtain ⟨s0, s1, ha, hcv, hsv⟩ := hc h1
    rw [hsv] at h2
    simp only [Option.getD_some] at h2
    subst h2
    refine ⟨⟨s0, ha⟩, ?_⟩
    have hu0 : (0 : K) < u := lt_trans (by positivity) hu
    have hz : x.iters ≠ 0 := by omega
    unfold convergence at hcv
    rw [hnorm, errors_fin hu hf.ne' hz] at hcv
    simp only at hcv
    split at hcv
    · rename_i hfin
      simp only [Option.some.injEq, decide_eq_true_eq] at hcv
      obtain ⟨h4, h5⟩ := Lemmas.Newton.max_le (by simp) hfin hcv
      simp only [Fl.le] at h4 h5
      exact ⟨(div_le_iff₀ hu0).1 h4, (div_le_iff₀ hf).1 h5⟩
    · simp at hcv
  · rw [hs] at h; simp at h
  · rw [hs] at h; simp at h

/-- C107: a step that does not converge leaves the stored solution as it was. -/
theorem c107_unchanged (ops : Iteration K S) (eps : K) (iterMax : Int) (old new : S) (n : Nat)
    (h : compute ops eps iterMax old = .ok (false, new, n)) : new = old := by
  unfold compute at h
  rcases hs : stepLoop ops eps (NewtonParams.toSize iterMax) 0 old with x | _ | _
  · rw [hs] at h
    simp only [Outcome.bind_ok, Outcome.ok.injEq, Prod.mk.injEq] at h
    obtain ⟨h1, h2, _⟩ := h
    rw [(stepLoop_spec ops eps _ 0 old hs).2.2.2 h1] at h2
    exact h2.symm
  · rw [hs] at h; simp at h
  · rw [hs] at h; simp at h

/-- C107: at most `iter_max` iterations are done. -/
theorem c107_bound (ops : Iteration K S) (eps : K) {iterMax : Int} (h0 : 0 ≤ iterMax) (h1 : iterMax < 2 ^ 31)
    (old : S) {b : Bool} {new : S} {n : Nat} (h : compute ops eps iterMax old = .ok (b, new, n)) :
    (n : Int) ≤ iterMax := by
  unfold compute at h
  rcases hs : stepLoop ops eps (NewtonParams.toSize iterMax) 0 old with x | _ | _
  · rw [hs] at h
    simp only [Outcome.bind_ok, Outcome.ok.injEq, Prod.mk.injEq] at h
    have := (stepLoop_spec ops eps _ 0 old hs).1
    have hz : NewtonParams.toSize iterMax = iterMax.toNat := by
      unfold NewtonParams.toSize
      rw [Int.emod_eq_of_lt h0 (by omega)]
    omega
  · rw [hs] at h; simp at h
  · rw [hs] at h; simp at h

/-- C107, violated: a residual that is NaN does not prevent convergence, as `std::max` drops a NaN in its second
argument. -/
theorem c107_nan_violated [IsStrictOrderedRing K] (eps u f : K) (he : 0 ≤ eps) (hu : 10 / 10 ^ 15 < u) (iter : Nat) :
    convergence eps ⟨.fin u, .nan, .fin f, .fin 0⟩ (iter + 1) = some true := by
  have hu0 : (0 : K) < u := lt_trans (by positivity) hu
  unfold convergence errors
  simp [Fl.le, not_le.2 hu, Fl.div, hu0.ne', Fl.max, Fl.lt, Fl.isFinite, he]

/-- In contrast, a NaN in the increment is noticed. -/
theorem c107_nan_incr (eps : K) (u r f : Fl K) (iter : Nat) :
    convergence eps ⟨u, r, f, .nan⟩ (iter + 1) = none := by
  unfold convergence errors
  simp [Fl.div, Fl.max, Fl.lt, Fl.isFinite]

/-- C107, violated: for `eps ≥ 1` the first iteration is accepted, whatever the residual, and nothing is solved. -/
theorem c107_eps_violated (ops : Iteration K S) {eps : K} (he : 1 ≤ eps) {iterMax : Int} (h0 : 0 < iterMax)
    (h1 : iterMax < 2 ^ 31) {old s : S} (ha : ops.assemble old = .ok (some s)) :
    compute ops eps iterMax old = .ok (true, s, 0) := by
  obtain ⟨k, hk⟩ : ∃ k, NewtonParams.toSize iterMax = k + 1 := by
    refine ⟨iterMax.toNat - 1, ?_⟩
    unfold NewtonParams.toSize
    rw [Int.emod_eq_of_lt h0.le (by omega)]
    omega
  have hc : convergence eps (ops.norms s) 0 = some true := by
    unfold convergence errors
    simp [Fl.max, Fl.lt, Fl.isFinite, Fl.le, he]
  simp [compute, hk, stepLoop, ha, hc]

/-- C107, violated: an exception of the linear solver (`solve` without Pardiso) leaves the step and the time loop. -/
theorem c107_solve_violated (ops : Iteration K S) {eps : K} (he : eps < 1) {iterMax : Int} (h0 : 0 < iterMax)
    (h1 : iterMax < 2 ^ 31) {old s : S} (ha : ops.assemble old = .ok (some s)) (hs : (ops.solve s).Throws) :
    (compute ops eps iterMax old).Throws := by
  obtain ⟨k, hk⟩ : ∃ k, NewtonParams.toSize iterMax = k + 1 := by
    refine ⟨iterMax.toNat - 1, ?_⟩
    unfold NewtonParams.toSize
    rw [Int.emod_eq_of_lt h0.le (by omega)]
    omega
  have hc : convergence eps (ops.norms s) 0 = some false := by
    unfold convergence errors
    simp [Fl.max, Fl.lt, Fl.isFinite, Fl.le, he]
  rcases hv : ops.solve s with x | _ | _
  · rw [hv] at hs; simp [Outcome.Throws] at hs
  · simp [compute, hk, stepLoop, ha, hc, hv, Outcome.Throws]
  · rw [hv] at hs; simp [Outcome.Throws] at hs

end

/-- An iteration on one unknown that solves `x = 1` at once; non-vacuity of C107. -/
def exOps : Iteration ℚ ℚ :=
  ⟨fun s => .ok (some s), fun s => ⟨.fin |s|, .fin |1 - s|, .fin 1, .fin (if s = 1 then 0 else 1)⟩,
   fun _ => .ok 1, id⟩

example : compute exOps (1 / 100) 10 0 = .ok (true, 1, 1) := by decide +kernel
example : compute exOps (1 / 100) 1 0 = .ok (false, 0, 1) := by decide +kernel

section
variable {K : Type} [Field K]

/-- C108: the displacement is the old one plus all the increments. -/
theorem c108_displ (beta gamma dt : K) (m : Motion K) (xs : List K) :
    (newmark beta gamma dt m xs).u = m.u + xs.sum := foldl_u beta gamma dt m m xs

/-- C108: from rest, a step with one iteration gives Newmark's acceleration, and for `gamma = 1` his velocity. -/
theorem c108_rest_partial (beta dt x : K) :
    (newmark beta 1 dt ⟨0, 0, 0⟩ [x]).a = newmarkAcce beta dt 0 0 0 x ∧
    (newmark beta 1 dt ⟨0, 0, 0⟩ [x]).v =
      newmarkVelo 1 dt 0 0 (newmark beta 1 dt ⟨0, 0, 0⟩ [x]).a := by
  simp [newmark, newmarkUpdate, predictor, newmarkAcce, newmarkVelo]

/-- C108, violated: the acceleration is computed from the last increment only. If the last increment is zero (the
step has converged), the acceleration is the predictor, whatever the motion. -/
theorem c108_acce_violated (beta gamma dt : K) (m : Motion K) (xs : List K) :
    (newmark beta gamma dt m (xs ++ [0])).a = predictor beta dt m := by
  rw [newmark_last]; simp [newmarkUpdate]

/-- C108, violated: from rest and with a converged last iteration the acceleration and the velocity are zero, though
the body has moved by `x`; Newmark's acceleration is `x / (beta dt²)`. -/
theorem c108_rest_violated (beta gamma dt x : K) :
    newmark beta gamma dt ⟨0, 0, 0⟩ [x, 0] = ⟨x, 0, 0⟩ ∧
    newmarkAcce beta dt 0 0 0 x = x / (beta * dt * dt) := by
  simp [newmark, newmarkUpdate, predictor, newmarkAcce]

/-- C108, violated: the velocity does not depend on `gamma` nor on the old acceleration. -/
theorem c108_velo_violated (beta gamma dt : K) (m : Motion K) (xs : List K) (x : K) :
    (newmark beta gamma dt m (xs ++ [x])).v = m.v + dt * (newmark beta gamma dt m (xs ++ [x])).a := by
  rw [newmark_last]; simp only [newmarkUpdate]; ring

/-- C108: with one iteration, the acceleration is off by the displacement and by the factor of the old acceleration. -/
theorem c108_defect [CharZero K] {beta dt : K} (hb : beta ≠ 0) (hdt : dt ≠ 0) (gamma : K) (m : Motion K) (x : K) :
    (newmark beta gamma dt m [x]).a - newmarkAcce beta dt m.u m.v m.a (m.u + x) =
      -(m.u / (beta * dt * dt)) + (1 - 2 * beta) * (1 / (2 * beta) - dt * dt / 2) * m.a := by
  simp only [newmark, List.foldl_cons, List.foldl_nil, newmarkUpdate, predictor, newmarkAcce]
  have h2 : (2 : K) ≠ 0 := two_ne_zero
  field_simp
  ring

/-- C108, violated: the inertia in the system is `M (u / (beta dt²) - pred)`; with the predictor of the code it
differs from `M` times the acceleration stored after the first iteration by `2 M pred`. -/
theorem c108_sign_violated (beta dt mass u x pred : K) :
    inertiaLhs beta dt mass * x - inertiaRhs beta dt mass u pred =
      mass * ((u + x) / (beta * dt * dt) + pred) - 2 * mass * pred := by
  simp only [inertiaLhs, inertiaRhs]; ring

end

example : (newmark (1 / 4) (1 / 2) 1 ⟨0, 0, 0⟩ [(1 : ℚ)]).a = 4 := by decide +kernel
example : (newmark (1 / 4) (1 / 2) 1 ⟨0, 0, 0⟩ [(1 : ℚ)]).v = 4 ∧ newmarkVelo (1 / 2) 1 0 0 (4 : ℚ) = 2 := by
  decide +kernel

section
variable {K : Type} [Field K] [LinearOrder K] [IsStrictOrderedRing K] {S : Type}

/-- C109: with a number of sublevels that is not negative, the time loop ends after at most `n (2^(sub+1) - 1)` Newton
steps. The accepted steps follow each other from 0; if all steps were done, up to `T`. The stored solution is that of
the last accepted step. -/
theorem c109_loop_partial {newton : Step K → S → Bool × S}
    (hnew : ∀ c s, (newton c s).1 = false → (newton c s).2 = s) {sub : Int} (h0 : 0 ≤ sub) (h1 : sub < 2 ^ 31)
    {T : K} (hT : 0 < T) {n : Nat} (hn : 0 < n) (s0 : S) (ts : List K) :
    ∃ b l, timeLoop newton sub (n * attempts sub.toNat) (start T n s0 ts) = .ok (some (b, l)) ∧
      (∃ t ≤ T, Covers 0 t (l.accepted.map fun p => (p.1.start, p.1.fin)) ∧ (b = true → t = T)) ∧
      (l.sol = (l.accepted.getLast?.map Prod.snd).getD s0) := by
  obtain ⟨hi, hb⟩ := start_inv hT hn s0 ts sub.toNat
  obtain ⟨b, l, h, hinv, he⟩ := timeLoop_inv hnew h0 h1 _ _ hi (le_of_eq hb)
  refine ⟨b, l, h, ?_, hinv.sol⟩
  obtain ⟨t, ht1, ht2⟩ := covers_split hinv.covers
  refine ⟨t, covers_le ht2, ht1, fun hbt => ?_⟩
  rw [he hbt] at ht2
  exact ht2

/-- C109: the times are saved in the order in which they were asked for, each with the solution of an accepted step
that does not end before it (up to `1e-5`). -/
theorem c109_save_partial {newton : Step K → S → Bool × S}
    (hnew : ∀ c s, (newton c s).1 = false → (newton c s).2 = s) {sub : Int} (h0 : 0 ≤ sub) (h1 : sub < 2 ^ 31)
    {T : K} (hT : 0 < T) {n : Nat} (hn : 0 < n) (s0 : S) (ts : List K) :
    ∃ b l, timeLoop newton sub (n * attempts sub.toNat) (start T n s0 ts) = .ok (some (b, l)) ∧
      ts = l.saved.map Prod.fst ++ l.toSave ∧
      ∀ p ∈ l.saved, ∃ q ∈ l.accepted, q.2 = p.2 ∧ p.1 < q.1.fin + 1 / 100000 := by
  obtain ⟨hi, hb⟩ := start_inv hT hn s0 ts sub.toNat
  obtain ⟨b, l, h, hinv, _⟩ := timeLoop_inv hnew h0 h1 _ _ hi (le_of_eq hb)
  exact ⟨b, l, h, hinv.saves, hinv.saved⟩

/-- C109, violated: with a negative number of sublevels (`-1`) a step that never converges is split forever (`2^64`
levels are not reached). -/
theorem c109_split_violated (l : Loop K S) (k : Nat) (hne : l.steps.list ≠ [])
    (hk : ∀ s ∈ l.steps.list, s.level + k < 2 ^ 64 - 1) :
    timeLoop (fun _ s => (false, s)) (-1) k l = .ok none := by
  have hz : NewtonParams.toSize (-1) = 2 ^ 64 - 1 := by decide +kernel
  induction k generalizing l with
  | zero => unfold timeLoop; rw [if_neg hne]
  | succ k ih =>
    unfold timeLoop
    rw [if_neg hne]
    obtain ⟨⟨st, comp⟩, sol, toSave, accepted, saved⟩ := l
    rcases st with _ | ⟨c, st⟩
    · exact absurd rfl hne
    have hc := hk c (by simp)
    have hlev : ¬ (c.level + 1 > 2 ^ 64 - 1) := by omega
    simp only [attempt, current, split, Outcome.bind_ok, hz, Bool.false_eq_true, if_false, hlev, List.tail_cons]
    refine ih _ (by simp) ?_
    intro s hs
    simp only [List.mem_cons] at hs
    rcases hs with rfl | rfl | hs
    · simp only; omega
    · simp only; omega
    · have := hk s (by simp [hs]); omega

/-- C109, violated: of two times within one step only the first is saved; here `1/4` and `1/2` for one step up to 1,
after which the loop is done. -/
theorem c109_save_violated :
    timeLoop (fun _ _ => (true, ())) 0 1 (start (1 : ℚ) 1 () [1 / 4, 1 / 2]) =
      .ok (some (true, ⟨⟨[], 1⟩, (), [1 / 2], [(⟨0, 1, 0⟩, ())], [(1 / 4, ())]⟩)) := by
  have h : start (1 : ℚ) 1 () [1 / 4, 1 / 2] = ⟨⟨[⟨0, 1, 0⟩], 0⟩, (), [1 / 4, 1 / 2], [], []⟩ := by
    have : init id (1 : ℚ) 1 = ⟨[⟨0, 1, 0⟩], 0⟩ := by decide +kernel
    simp [start, this]
  rw [h]
  have e : (1 / 4 : ℚ) < 1 + 1 / 100000 := by norm_num
  unfold timeLoop
  simp only [List.cons_ne_nil, if_false, attempt, current, remove, Outcome.bind_ok, if_true, save]
  rw [if_pos e]
  rfl

end
end Verif.Props.Newton
