import Verif.Lemmas.TimeSteps
import Mathlib.Data.Rat.Floor
/-!
C43: the list of time steps covers the requested interval.
-/
namespace Verif.Props.TimeStepping
open Verif Verif.Spec Verif.TimeSteps
variable {K : Type} [Field K] [LinearOrder K] [IsStrictOrderedRing K]

/-- C43, in exact arithmetic: after any sequence of accepting and splitting the current step that does not act on an
empty list, the accepted steps followed by the remaining ones cover `[0, T]`; the counters are right; every step has
length `T / n / 2^level`. -/
theorem c43_partial {T : K} (hT : 0 < T) {n : Nat} (hn : 0 < n) (ops : List Op) {s : Steps K} {acc : List (Step K)}
    (hr : run id (init id T n) [] ops = .ok (s, acc)) :
    Covers 0 T ((acc ++ s.list).map fun t => (t.start, t.fin)) ∧ s.comp = acc.length ∧
      number s = n + ops.count .split ∧ ∀ t ∈ acc ++ s.list, t.fin - t.start = T / n / 2 ^ t.level := by
  have h := inv_run (inv_init hT hn) ops hr
  refine ⟨h.cov, h.comp, ?_, h.len⟩
  have := h.num
  simp only [List.length_append] at this
  unfold number
  rw [h.comp]; omega

example : run id (init id (4 : ℚ) 2) [] [.split, .accept, .split, .accept, .accept] =
    .ok (⟨[⟨2, 4, 0⟩], 3⟩, [⟨0, 1, 1⟩, ⟨1, 3 / 2, 2⟩, ⟨3 / 2, 2, 2⟩]) := by decide +kernel

/-- C43: the remaining steps start where the last accepted one ended, and end at `T`. -/
theorem c43_resume_partial {T : K} (hT : 0 < T) {n : Nat} (hn : 0 < n) (ops : List Op) {s : Steps K}
    {acc : List (Step K)} (hr : run id (init id T n) [] ops = .ok (s, acc)) :
    Covers (startTime acc) T (s.list.map fun t => (t.start, t.fin)) := by
  have h := (inv_run (inv_init hT hn) ops hr).cov
  rw [List.map_append] at h
  obtain ⟨b, h1, h2⟩ := covers_split h
  rw [startTime_covers h1]
  exact h2

/-- C43: acting on an exhausted list is undefined behaviour, and only that. -/
theorem c43_empty (rd : K → K) (s : Steps K) :
    ((remove s).IsUB ↔ s.list = []) ∧ ((split rd s).IsUB ↔ s.list = []) ∧ ((current s).IsUB ↔ s.list = []) := by
  rcases s with ⟨_ | ⟨c, l⟩, k⟩ <;> simp [remove, split, current, Outcome.bind, Outcome.IsUB]

/-- C43: stages with increasing end times cover `[0, last end time]`, in exact arithmetic. -/
theorem c43_stages_partial {st : List (K × Nat)} (h : Increasing 0 st) {e : K × Nat}
    (he : st.getLast? = some e) : ∃ s, initStages id st = .ok s ∧ s.comp = 0 ∧
      Covers 0 e.1 (s.list.map fun t => (t.start, t.fin)) := by
  refine ⟨_, by unfold initStages; rw [he], rfl, ?_⟩
  have := stages_covers st h (l := []) rfl (increasing_le_last h he)
  rwa [List.getLastD_eq_getLast?, List.getLast?_map, he] at this

example : Increasing (0 : ℚ) [(1, 2), (5, 1)] ∧ [((1 : ℚ), 2), (5, 1)].getLast? = some (5, 1) := by
  refine ⟨?_, rfl⟩
  unfold Increasing; norm_num [Increasing]

/-- C43: with a final time, the steps are contiguous from 0 and none passes the final time, in exact arithmetic. -/
theorem c43_until_partial {st : List (K × Nat)} (h : Increasing 0 st) {final : K} (hf : 0 ≤ final) :
    ∃ e ≤ final, Covers 0 e ((initUntil id st final).list.map fun t => (t.start, t.fin)) :=
  until_covers st h (l := []) rfl le_rfl hf

/-- Such a rounding exists. -/
example : ∃ rd, Nearest rd := exists_nearest

/-- C43 fails in double precision: `ListOfTimeStep(100, 11)` silently loses its last step, whatever the rule for ties
in the rounding; all remaining steps end before 92, so the simulation stops short of the requested final time. -/
theorem c43_violation {rd : ℚ → ℚ} (h : Nearest rd) :
    (init rd 100 11).list.length ≤ 10 ∧ ∀ t ∈ (init rd 100 11).list, t.fin < 92 := by
  obtain ⟨h1, h2⟩ := overshoot h
  have h92 : ∀ i : Nat, i < 10 → rd (0 + rd (((i + 1 : Nat) : ℚ) * (5117726849284655 * (2 : ℚ) ^ (-49 : ℤ)))) ≤ 91 := by
    intro i hi
    have d91 : IsDouble 91 := by simpa using isDouble_int (m := 91) (by norm_num)
    refine rd_le h d91 ?_
    rw [zero_add]
    refine rd_le h d91 ?_
    have : ((i + 1 : Nat) : ℚ) ≤ 10 := by exact_mod_cast hi
    have p : (0 : ℚ) ≤ 5117726849284655 * (2 : ℚ) ^ (-49 : ℤ) := by positivity
    calc _ ≤ 10 * (5117726849284655 * (2 : ℚ) ^ (-49 : ℤ)) := mul_le_mul_of_nonneg_right this p
      _ ≤ 91 := by norm_num [zpow_neg]
  unfold init addStepping
  have a0 : startTime ([] : List (Step ℚ)) = 0 := rfl
  simp only [a0]
  rw [show ((11 : Nat) : ℚ) = 11 by norm_num, h1, List.range_succ, List.foldl_append]
  have last : ¬ rd (0 + rd (((10 + 1 : Nat) : ℚ) * (5117726849284655 * (2 : ℚ) ^ (-49 : ℤ)))) ≤ 100 := by
    rw [show ((10 + 1 : Nat) : ℚ) = 11 by norm_num, h2]
    norm_num [zpow_neg]
  simp only [List.foldl_cons, List.foldl_nil, if_neg last]
  have key : ∀ m ≤ 10, ∀ l : List (Step ℚ), l = (List.range m).foldl (fun l (i : Nat) =>
      if rd (0 + rd (((i + 1 : Nat) : ℚ) * (5117726849284655 * (2 : ℚ) ^ (-49 : ℤ)))) ≤ 100 then
        l ++ [(⟨rd (0 + rd ((i : ℚ) * (5117726849284655 * (2 : ℚ) ^ (-49 : ℤ)))),
          rd (0 + rd (((i + 1 : Nat) : ℚ) * (5117726849284655 * (2 : ℚ) ^ (-49 : ℤ)))), 0⟩ : Step ℚ)]
      else l) [] → l.length ≤ m ∧ ∀ t ∈ l, t.fin < 92 := by
    intro m
    induction m with
    | zero => rintro _ l rfl; simp
    | succ m ih =>
      rintro hm l rfl
      rw [List.range_succ, List.foldl_append]
      simp only [List.foldl_cons, List.foldl_nil]
      obtain ⟨i1, i2⟩ := ih (by omega) _ rfl
      split_ifs
      · refine ⟨by rw [List.length_append]; simpa using i1, ?_⟩
        intro t ht
        rcases List.mem_append.mp ht with ht | ht
        · exact i2 t ht
        · simp only [List.mem_singleton] at ht
          subst ht
          have := h92 m (by omega)
          dsimp only
          linarith
      · exact ⟨by omega, i2⟩
  exact key 10 le_rfl _ rfl

end Verif.Props.TimeStepping
