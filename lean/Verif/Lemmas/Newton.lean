import Verif.Model.Newton
import Verif.Spec.Newton
import Verif.Lemmas.TimeSteps
import Mathlib.Tactic.Ring
import Mathlib.Tactic.FieldSimp
import Mathlib.Tactic.Linarith
import Mathlib.Tactic.NormNum
import Mathlib.Tactic.Positivity
/-!
Lemmas on the Newton step, Newmark's update and the time loop.
-/
namespace Verif.Lemmas.Newton
open Verif.Newton Verif.TimeSteps Verif.Spec

section
variable {K : Type} [Field K] [LinearOrder K] {S : Type}

/-- A finite maximum whose second argument is not NaN bounds both arguments. -/
theorem max_le {a b : Fl K} {e : K} (hb : b ≠ .nan) (hf : (a.max b).isFinite = true)
    (h : (a.max b).le (.fin e)) : a.le (.fin e) ∧ b.le (.fin e) := by
  unfold Fl.max at hf h
  by_cases hab : a.lt b
  · rw [if_pos hab] at hf h
    rcases a with a | _ | _ <;> rcases b with b | _ | _ <;> simp_all [Fl.lt, Fl.isFinite, Fl.le]
    exact le_trans hab.le h
  · rw [if_neg hab] at hf h
    rcases a with a | _ | _ <;> rcases b with b | _ | _ <;> simp_all [Fl.lt, Fl.isFinite, Fl.le]
    exact le_trans hab h

theorem errors_fin [IsStrictOrderedRing K] {u r f d : K} (hu : 10 / 10 ^ 15 < u) (hf : f ≠ 0) {n : Nat} (hn : n ≠ 0) :
    errors ⟨.fin u, .fin r, .fin f, .fin d⟩ n = (.fin (d / u), .fin (r / f)) := by
  have hu0 : (0 : K) < u := lt_trans (by positivity) hu
  unfold errors
  simp [Fl.le, not_le.2 hu, hn, Fl.div, hu0.ne', hf]

/-- What the loop of the Newton step returns. -/
theorem stepLoop_spec (ops : Iteration K S) (eps : K) (k iter : Nat) (s : S) {r : StepResult S}
    (h : stepLoop ops eps k iter s = .ok r) :
    r.iters ≤ iter + k ∧ iter ≤ r.iters ∧
    (r.converged = true → ∃ s0 s1, ops.assemble s0 = .ok (some s1) ∧
      convergence eps (ops.norms s1) r.iters = some true ∧ r.saved = some s1) ∧
    (r.converged = false → r.saved = none) := by
  induction k generalizing iter s with
  | zero => simp only [stepLoop, Outcome.ok.injEq] at h; subst h; simp
  | succ k ih =>
    simp only [stepLoop] at h
    rcases ha : ops.assemble s with s' | _ | _
    · rw [ha] at h
      simp only [Outcome.bind_ok] at h
      rcases s' with _ | s1
      · simp only [Outcome.ok.injEq] at h; subst h; simp
      · simp only at h
        rcases hc : convergence eps (ops.norms s1) iter with _ | _ | _
        · rw [hc] at h; simp only [Outcome.ok.injEq] at h; subst h; simp
        · rw [hc] at h
          simp only at h
          rcases hs : ops.solve s1 with s2 | _ | _
          · rw [hs] at h
            simp only [Outcome.bind_ok] at h
            obtain ⟨h1, h2, h3, h4⟩ := ih (iter + 1) (ops.postprocess s2) h
            exact ⟨by omega, by omega, h3, h4⟩
          · rw [hs] at h; simp at h
          · rw [hs] at h; simp at h
        · rw [hc] at h
          simp only [Outcome.ok.injEq] at h
          subst h
          exact ⟨by simp, by simp, fun _ => ⟨s, s1, ha, hc, rfl⟩, by simp⟩
    · rw [ha] at h; simp at h
    · rw [ha] at h; simp at h

end

section
variable {K : Type} [Field K]

theorem foldl_u (beta gamma dt : K) (m0 m : Motion K) (xs : List K) :
    (xs.foldl (newmarkUpdate beta gamma dt m0) m).u = m.u + xs.sum := by
  induction xs generalizing m with
  | nil => simp
  | cons x xs ih => rw [List.foldl_cons, ih]; simp [newmarkUpdate]; ring

theorem newmark_last (beta gamma dt : K) (m0 : Motion K) (xs : List K) (x : K) :
    newmark beta gamma dt m0 (xs ++ [x]) =
      newmarkUpdate beta gamma dt m0 (newmark beta gamma dt m0 xs) x := by
  simp [newmark]

end

section
variable {K : Type} [Field K] [LinearOrder K] [IsStrictOrderedRing K] {S : Type}

/-- Attempts left for a list of steps. -/
def budget (sub : Nat) (l : List (Step K)) : Nat := (l.map fun s => attempts (sub - s.level)).sum

theorem attempts_pos (d : Nat) : 0 < attempts d := by
  unfold attempts
  have := Nat.one_lt_two_pow (n := d + 1) (by omega)
  omega

theorem attempts_succ (d : Nat) : attempts (d + 1) = 2 * attempts d + 1 := by
  unfold attempts
  have := Nat.one_lt_two_pow (n := d + 1) (by omega)
  rw [pow_succ 2 (d + 1)]
  omega

/-- Invariant of the time loop: accepted and remaining steps cover the interval, the levels stay below the bound, the
stored solution is the last accepted one. -/
structure LoopInv (T : K) (sub : Nat) (s0 : S) (ts : List K) (l : Loop K S) : Prop where
  covers : Covers 0 T ((l.accepted.map fun p => (p.1.start, p.1.fin)) ++ l.steps.list.map fun s => (s.start, s.fin))
  level : ∀ s ∈ l.steps.list, s.level ≤ sub
  sol : l.sol = (l.accepted.getLast?.map Prod.snd).getD s0
  saves : ts = l.saved.map Prod.fst ++ l.toSave
  saved : ∀ p ∈ l.saved, ∃ q ∈ l.accepted, q.2 = p.2 ∧ p.1 < q.1.fin + 1 / 100000

theorem save_steps (t : K) (l : Loop K S) : (save t l).steps = l.steps := by
  unfold save; split <;> [rfl; (split <;> rfl)]
theorem save_sol (t : K) (l : Loop K S) : (save t l).sol = l.sol := by
  unfold save; split <;> [rfl; (split <;> rfl)]
theorem save_accepted (t : K) (l : Loop K S) : (save t l).accepted = l.accepted := by
  unfold save; split <;> [rfl; (split <;> rfl)]

theorem save_saves (t : K) (l : Loop K S) :
    (save t l).saved.map Prod.fst ++ (save t l).toSave = l.saved.map Prod.fst ++ l.toSave := by
  unfold save
  split
  · rfl
  · rename_i x xs h
    split
    · simp [h]
    · rfl

theorem save_saved (t : K) (l : Loop K S) {p : K × S} (h : p ∈ (save t l).saved) :
    p ∈ l.saved ∨ (p.2 = l.sol ∧ p.1 < t + 1 / 100000) := by
  unfold save at h
  split at h
  · exact Or.inl h
  · split at h
    · rename_i hx
      simp only [List.mem_append, List.mem_singleton] at h
      rcases h with h | h
      · exact Or.inl h
      · subst h; exact Or.inr ⟨rfl, hx⟩
    · exact Or.inl h

/-- One round keeps the invariant and uses up an attempt. -/
theorem round_inv {newton : Step K → S → Bool × S} (hn : ∀ c s, (newton c s).1 = false → (newton c s).2 = s)
    {T : K} {sub : Int} (h0 : 0 ≤ sub) (h1 : sub < 2 ^ 31) {s0 : S} {ts : List K} {l : Loop K S}
    (h : LoopInv T sub.toNat s0 ts l) (hne : l.steps.list ≠ []) :
    (∃ l', attempt newton sub l = .ok (.inl l') ∧ LoopInv T sub.toNat s0 ts l') ∨
    (∃ l', attempt newton sub l = .ok (.inr l') ∧ LoopInv T sub.toNat s0 ts l' ∧
      budget sub.toNat l'.steps.list < budget sub.toNat l.steps.list) := by
  have hsz : NewtonParams.toSize sub = sub.toNat := by
    unfold NewtonParams.toSize
    rw [Int.emod_eq_of_lt h0 (by omega)]
  obtain ⟨⟨st, comp⟩, sol, toSave, accepted, saved⟩ := l
  rcases st with _ | ⟨c, st⟩
  · exact absurd rfl hne
  obtain ⟨hc, hl, hs, hv, hd⟩ := h
  simp only at hc hl hs hv hd
  unfold attempt
  simp only [current, remove, split, Outcome.bind_ok, hsz]
  rcases hr : newton c sol with ⟨b, s'⟩
  rcases b with _ | _
  · have hs' : s' = sol := by have := hn c sol (by rw [hr]); rwa [hr] at this
    subst hs'
    simp only [Bool.false_eq_true, if_false]
    split
    · exact Or.inl ⟨_, rfl, ⟨hc, hl, hs, hv, hd⟩⟩
    · rename_i hlev
      refine Or.inr ⟨_, rfl, ⟨?_, ?_, hs, hv, hd⟩, ?_⟩
      · obtain ⟨m, hm1, hm2⟩ := covers_split hc
        refine covers_append hm1 ?_
        simp only [List.map_cons, Covers, id, List.tail_cons] at hm2 ⊢
        obtain ⟨ha, hb, hrest⟩ := hm2
        refine ⟨ha, by linarith, trivial, by linarith, hrest⟩
      · intro s hs
        simp only [List.tail_cons, List.mem_cons] at hs
        rcases hs with rfl | rfl | hs
        · simp only; omega
        · simp only; omega
        · exact hl s (by simp [hs])
      · obtain ⟨d, hd'⟩ : ∃ d, sub.toNat - c.level = d + 1 := ⟨sub.toNat - c.level - 1, by omega⟩
        have hd2 : sub.toNat - (c.level + 1) = d := by omega
        simp only [budget, List.map_cons, List.sum_cons, List.tail_cons, hd', hd2, attempts_succ]
        omega
  · simp only [if_true]
    refine Or.inr ⟨_, rfl, ⟨?_, ?_, ?_, ?_, ?_⟩, ?_⟩
    · rw [save_accepted, save_steps]; simpa using hc
    · rw [save_steps]; intro s hs; exact hl s (by simp [hs])
    · rw [save_accepted, save_sol]; simp
    · rw [save_saves]; exact hv
    · intro p hp
      rw [save_accepted]
      rcases save_saved _ _ hp with hp | hp
      · obtain ⟨q, hq, h⟩ := hd p hp
        exact ⟨q, by simp [hq], h⟩
      · exact ⟨(c, s'), by simp, hp.1.symm, hp.2⟩
    · rw [save_steps]
      have := attempts_pos (sub.toNat - c.level)
      simp only [budget, List.map_cons, List.sum_cons]
      omega

/-- The time loop ends within the budget. -/
theorem timeLoop_inv {newton : Step K → S → Bool × S} (hn : ∀ c s, (newton c s).1 = false → (newton c s).2 = s)
    {T : K} {sub : Int} (h0 : 0 ≤ sub) (h1 : sub < 2 ^ 31) {s0 : S} {ts : List K} (k : Nat) (l : Loop K S)
    (h : LoopInv T sub.toNat s0 ts l) (hk : budget sub.toNat l.steps.list ≤ k) :
    ∃ b l', timeLoop newton sub k l = .ok (some (b, l')) ∧ LoopInv T sub.toNat s0 ts l' ∧
      (b = true → l'.steps.list = []) := by
  induction k generalizing l with
  | zero =>
    have he : l.steps.list = [] := by
      rcases hl : l.steps.list with _ | ⟨c, st⟩
      · rfl
      · rw [hl] at hk
        have := attempts_pos (sub.toNat - c.level)
        simp only [budget, List.map_cons, List.sum_cons] at hk
        omega
    exact ⟨true, l, by unfold timeLoop; rw [if_pos he], h, fun _ => he⟩
  | succ k ih =>
    by_cases he : l.steps.list = []
    · exact ⟨true, l, by unfold timeLoop; rw [if_pos he], h, fun _ => he⟩
    · rcases round_inv hn h0 h1 h he with ⟨l', hr, hi⟩ | ⟨l', hr, hi, hb⟩
      · exact ⟨false, l', by unfold timeLoop; rw [if_neg he, hr]; rfl, hi, by simp⟩
      · obtain ⟨b, l2, h2, hi2, he2⟩ := ih l' hi (by omega)
        exact ⟨b, l2, by unfold timeLoop; rw [if_neg he, hr]; exact h2, hi2, he2⟩

theorem start_inv {T : K} (hT : 0 < T) {n : Nat} (hn : 0 < n) (s0 : S) (ts : List K) (sub : Nat) :
    LoopInv T sub s0 ts (start T n s0 ts) ∧
    budget sub (start T n s0 ts).steps.list = n * attempts sub := by
  have he := addStepping_exact (user := T) (endT := T) (n := n) (l := []) hn (by simpa [startTime] using hT.le) le_rfl
  have hs : (start T n s0 ts).steps.list = newSteps 0 ((T - 0) / n) n := by
    simpa [start, init, startTime] using he
  refine ⟨⟨?_, ?_, by simp [start], by simp [start], by simp [start]⟩, ?_⟩
  · have hd : (0 : K) < (T - 0) / n := by have : (0 : K) < n := by exact_mod_cast hn
                                          simpa using div_pos hT this
    have := newSteps_covers (a := 0) hd n
    rw [hs]
    have hn' : (n : K) ≠ 0 := by exact_mod_cast hn.ne'
    have e : (0 : K) + n * ((T - 0) / n) = T := by field_simp; ring
    rw [e] at this
    have hivl : (ivl : Step K → K × K) = fun s => (s.start, s.fin) := rfl
    rw [hivl] at this
    simpa [start] using this
  · rw [hs]; intro s h; simp only [newSteps, List.mem_map] at h; obtain ⟨i, _, rfl⟩ := h; simp
  · rw [hs]; simp [budget, newSteps, Function.comp_def]

end
end Verif.Lemmas.Newton
