import Verif.Lemmas.Rigidity
import Mathlib.Analysis.Calculus.Deriv.Add
import Mathlib.Analysis.Calculus.Deriv.Mul
import Mathlib.Analysis.Calculus.Deriv.Linear
/-!
C110: local matrix and forces of the nonlinear solver. C111: adaptive stabilization.
-/
namespace Verif.Props.Rigidity
open Verif.Rigidity Verif.Tensor Verif.Spec Verif.Lemmas.Rigidity Finset

variable {D : Nat}

/-- C110: the lines of the code fit the symmetric basis in two and three dimensions. -/
theorem c110_lines : Fits lines2 ∧ Fits lines3 := ⟨fits2, fits3⟩

/-- C110: in large deformations the behavior is evaluated at `F = I + G`, in small deformations at the strain itself. -/
theorem c110_measure (q : Point D) (G : Mat ℝ D) :
    q.behavior true G = q.law G ∧ q.behavior false G = q.law (fun i j => (if i = j then 1 else 0) + G i j) := by
  refine ⟨rfl, congrArg q.law ?_⟩
  funext i j
  exact add_comm _ _

/-- C110: the internal forces are the virtual work of the stress. -/
theorem c110_forces {d : Data D} (h : Fitting d) (u v : Nat → ℝ) :
    ∑ i ∈ range d.n, d.fInt u i * v i =
      (d.pts.map fun q => q.w * ddot (q.behavior d.small (dofStrain d q u)).1 (dofStrain d q v)).sum := force_work h u v

/-- C110: the local matrix is the bilinear form of the tangent. -/
theorem c110_rigidity {d : Data D} (h : Fitting d) (u v w : Nat → ℝ) :
    ∑ i ∈ range d.n, ∑ j ∈ range d.n, v i * d.kInt u i j * w j =
      (d.pts.map fun q => q.w * ddot (dofStrain d q v)
        (tmProd (q.behavior d.small (dofStrain d q u)).2 (dofStrain d q w))).sum := rigidity_work h u v w

/-- C110: the tangent part of the local matrix is symmetric. -/
theorem c110_symmetric {d : Data D} (h : Fitting d) (u : Nat → ℝ) {i j : Nat} (hi : i < d.n) (hj : j < d.n) :
    d.kInt u i j = d.kInt u j i := by
  have e : ∀ a b, a < d.n → b < d.n → d.kInt u a b =
      ∑ i ∈ range d.n, ∑ j ∈ range d.n, (if i = a then 1 else 0) * d.kInt u i j * (if j = b then 1 else 0) := by
    intro a b ha hb
    rw [sum_eq_single a, sum_eq_single b]
    · simp
    · intro y _ hy; simp [hy]
    · intro hn; exact absurd (mem_range.2 hb) hn
    · intro x _ hx; simp [hx]
    · intro hn; exact absurd (mem_range.2 ha) hn
  rw [e i j hi hj, e j i hj hi, rigidity_work h, rigidity_work h]
  refine map_sum_congr _ _ _ fun q hq => ?_
  have hm : MajorSymmetric (q.behavior d.small (dofStrain d q u)).2 := by
    unfold Point.behavior; split <;> exact (h.adm q hq).major _
  rw [major_inner hm]

/-- C110: if at every point the tangent is the derivative of the stress, the local matrix (with stabilization and
inertia) is minus the derivative of the local right-hand side: Newton's method uses the exact linearization. -/
theorem c110_tangent {d : Data D} (h : Fitting d) (u v : Nat → ℝ)
    (ht : ∀ q ∈ d.pts, IsTangentOn (fun H => d.small = true → ∀ i j, H i j = H j i)
      (fun G => (q.behavior d.small G).1) (tmProd (q.behavior d.small (dofStrain d q u)).2) (dofStrain d q u))
    {i : Nat} (hi : i < d.n) (hm : d.m ≤ d.n) :
    HasDerivAt (fun t => d.rhs (fun k => u k + t * v k) i) (-∑ j ∈ range d.n, d.lhs u i j * v j) 0 := by
  have hF : HasDerivAt (fun t => d.fInt (fun k => u k + t * v k) i) (∑ j ∈ range d.n, d.kInt u i j * v j) 0 := by
    have e1 : ∀ x : Nat → ℝ, d.fInt x i = ∑ k ∈ range d.n, d.fInt x k * (if k = i then 1 else 0) := by
      intro x
      rw [sum_eq_single i]
      · simp
      · intro b _ hb; simp [hb]
      · intro hn; exact absurd (mem_range.2 hi) hn
    have e2 : ∑ j ∈ range d.n, d.kInt u i j * v j =
        ∑ a ∈ range d.n, ∑ b ∈ range d.n, (if a = i then 1 else 0) * d.kInt u a b * v b := by
      symm
      rw [sum_eq_single i]
      · simp
      · intro b _ hb; simp [hb]
      · intro hn; exact absurd (mem_range.2 hi) hn
    rw [e2, rigidity_work h]
    have e3 : (fun t => d.fInt (fun k => u k + t * v k) i) = fun t => (d.pts.map fun q => q.w *
        inner (q.behavior d.small (dofStrain d q fun k => u k + t * v k)).1 (dofStrain d q fun k => if k = i then 1 else 0)).sum := by
      funext t; rw [e1, force_work h]
    rw [e3]
    have hind : ∀ l : List (Point D), (∀ q ∈ l, q ∈ d.pts) → HasDerivAt (fun t => (l.map fun q => q.w *
        inner (q.behavior d.small (dofStrain d q fun k => u k + t * v k)).1
          (dofStrain d q fun k => if k = i then 1 else 0)).sum)
        ((l.map fun q => q.w * inner (dofStrain d q fun k => if k = i then 1 else 0)
          (tmProd (q.behavior d.small (dofStrain d q u)).2 (dofStrain d q v))).sum) 0 := by
      intro l
      induction l with
      | nil => intro _; simpa using hasDerivAt_const (0 : ℝ) (0 : ℝ)
      | cons q l ih =>
        intro hl
        simp only [List.map_cons, List.sum_cons]
        refine HasDerivAt.fun_add ?_ (ih fun x hx => hl x (by simp [hx]))
        refine HasDerivAt.const_mul _ ?_
        have hq := hl q (by simp)
        have hv : Velocity (fun t => dofStrain d q fun k => u k + t * v k) (dofStrain d q v) 0 := by
          intro a b
          have : (fun t : ℝ => dofStrain d q (fun k => u k + t * v k) a b) =
              fun t => dofStrain d q u a b + t * dofStrain d q v a b := by funext t; exact strain_add d q u v t a b
          rw [this]
          have h1 := ((hasDerivAt_id (0 : ℝ)).mul_const (dofStrain d q v a b)).const_add (dofStrain d q u a b)
          simpa using h1
        have h0 : dofStrain d q (fun k => u k + 0 * v k) = dofStrain d q u := by simp
        have hst := ht q hq (fun t => dofStrain d q fun k => u k + t * v k) (dofStrain d q v) 0 h0
          (fun hs a b => evalG_symm (fun n => gphi_symm h hs q n) _ a b) hv
        rw [inner_comm]
        unfold inner
        refine HasDerivAt.fun_sum fun a _ => HasDerivAt.fun_sum fun b _ => ?_
        exact (hst a b).mul_const _
    exact hind d.pts fun q hq => hq
  have hlin : ∀ (N : Nat) (c : Nat → ℝ), HasDerivAt (fun t => ∑ j ∈ range N, c j * (u j + t * v j))
      (∑ j ∈ range N, c j * v j) 0 := by
    intro N c
    refine HasDerivAt.fun_sum fun j _ => ?_
    have h1 := (((hasDerivAt_id (0 : ℝ)).mul_const (v j)).const_add (u j)).const_mul (c j)
    simpa using h1
  have hdyn : HasDerivAt (fun t => d.inertiaRhs (fun k => u k + t * v k) i)
      (-∑ j ∈ range d.n, d.inertia i j * v j) 0 := by
    unfold Data.inertiaRhs Data.inertia
    rcases d.dyna with _ | ⟨bdt, M, pred⟩
    · simpa using hasDerivAt_const (0 : ℝ) (0 : ℝ)
    · by_cases him : i < d.m
      · simp only [him, if_true, true_and]
        have e : ∑ j ∈ range d.n, (if j < d.m then M i j / bdt else 0) * v j = ∑ j ∈ range d.m, M i j / bdt * v j := by
          rw [← sum_subset (range_mono hm)]
          · exact sum_congr rfl fun j hj => by rw [if_pos (mem_range.1 hj)]
          · intro j _ hj; rw [if_neg (by simpa using hj), zero_mul]
        rw [e]
        exact ((hlin d.m fun j => M i j / bdt).fun_neg).add_const _
      · simp only [him, if_false, false_and, zero_mul, sum_const_zero, neg_zero]
        exact hasDerivAt_const (0 : ℝ) (0 : ℝ)
  have hall := ((hF.const_sub (d.load i)).fun_add hdyn).fun_sub (hlin d.n fun j => d.stabil i j)
  refine (hall.congr_deriv ?_)
  unfold Data.lhs
  simp only [_root_.add_mul, sum_add_distrib]
  ring

/-- C111: the coefficient of the adaptive stabilization lies in `[beta/10000, 1000 beta]`. -/
theorem c111_range_partial {beta : ℝ} (hb : 0 ≤ beta) (qs : List (ℝ × ℝ × ℝ)) {b : ℝ} (h : adaptive beta qs = some b) :
    beta / 10000 ≤ b ∧ b ≤ 1000 * beta := by
  unfold adaptive at h
  simp only at h
  split at h
  · simp at h
  · simp only [Option.some.injEq] at h
    subst h
    exact ⟨le_min (by linarith) (le_max_left _ _), min_le_left _ _⟩

/-- C111: where the ratio of stress and strain is the same `k` in the range at every point, it is the coefficient. -/
theorem c111_uniform {beta k : ℝ} (h1 : beta / 10000 ≤ k) (h2 : k ≤ 1000 * beta) {qs : List (ℝ × ℝ × ℝ)}
    (hw : 0 < (qs.map fun q => q.1).sum) (he : ∀ q ∈ qs, 1 / 10 ^ 12 ≤ q.2.2 ∧ q.2.1 = k * q.2.2) :
    adaptive beta qs = some k := by
  have e : (qs.map fun q => if q.2.2 < 1 / 10 ^ 12 then q.1 * beta else q.1 * q.2.1 / q.2.2).sum =
      k * (qs.map fun q => q.1).sum := by
    rw [mul_list_sum]
    refine map_sum_congr _ _ _ fun q hq => ?_
    obtain ⟨a, b⟩ := he q hq
    have hp : 0 < q.2.2 := lt_of_lt_of_le (by norm_num) a
    rw [if_neg (not_lt.2 a), b]
    field_simp
  unfold adaptive
  simp only [e]
  rw [if_neg hw.ne', mul_div_assoc, div_self hw.ne', mul_one, max_eq_right h1, min_eq_right h2]

/-- C111, violated: the range documented in the code is `[beta/1000, 1000 beta]`; a point with strain but no
deviatoric stress gives `beta/10000`. -/
theorem c111_range_violated {beta : ℝ} (hb : 0 < beta) :
    adaptive beta [(1, 0, 1)] = some (beta / 10000) ∧ beta / 10000 < beta / 1000 := by
  refine ⟨?_, by linarith⟩
  unfold adaptive
  have : ¬ ((1 : ℝ) < 1 / 10 ^ 12) := by norm_num
  simp only [List.map_cons, List.map_nil, List.sum_cons, List.sum_nil, this, if_false]
  rw [if_neg (by norm_num)]
  have h1 : max (beta / 10000) ((1 * 0 / 1 + 0) / (1 + 0)) = beta / 10000 := by
    rw [max_eq_left]; simp; positivity
  rw [h1, min_eq_right (by linarith)]

/-- C111: values written for the next step are not seen before `update`: the coefficient is the same in all iterations
of a step, and a rejected step leaves it. -/
theorem c111_frozen (m : Manager) (ws : List (Nat × ℝ)) :
    (m.run (ws.map fun w => .setNext w.1 w.2)).cur = m.cur := by
  induction ws generalizing m with
  | nil => rfl
  | cons w ws ih => exact ih (m.step (.setNext w.1 w.2))

/-- C111: after `update` the coefficient of a cell is the last value written for it, whatever was written before. -/
theorem c111_update (m : Manager) (ws ws' : List (Nat × ℝ)) (c : Nat) (v : ℝ) (h : ∀ w ∈ ws', w.1 ≠ c) :
    (m.run ((ws.map fun w => .setNext w.1 w.2) ++ .setNext c v :: (ws'.map fun w => .setNext w.1 w.2) ++ [.update])).cur c
      = v := by
  have key : ∀ (ws' : List (Nat × ℝ)) (m : Manager), (∀ w ∈ ws', w.1 ≠ c) →
      (m.run (ws'.map fun w => .setNext w.1 w.2)).next c = m.next c := by
    intro ws'
    induction ws' with
    | nil => intro m _; rfl
    | cons w ws' ih =>
      intro m h
      have := ih (m.step (.setNext w.1 w.2)) fun x hx => h x (by simp [hx])
      refine Eq.trans this ?_
      exact Function.update_of_ne (fun e => h w (by simp) e.symm) _ _
  unfold Manager.run
  rw [List.foldl_append, List.foldl_append, List.foldl_cons]
  refine Eq.trans (key ws' _ h) ?_
  exact Function.update_self _ _ _

/-- C111: a value taken over by `update` stays, whatever is written for other cells and however often `update` is called. -/
theorem c111_keep (m : Manager) (c : Nat) (v : ℝ) (ops : List Op)
    (h : ∀ o ∈ ops, o = .update ∨ ∃ c' w, c' ≠ c ∧ (o = .setNext c' w ∨ o = .setValue c' w)) :
    (m.run (.setNext c v :: .update :: ops)).cur c = v := by
  have key : ∀ (ops : List Op) (m : Manager), (∀ o ∈ ops, o = .update ∨ ∃ c' w, c' ≠ c ∧ (o = .setNext c' w ∨ o = .setValue c' w)) →
      m.cur c = v → m.next c = v → (m.run ops).cur c = v := by
    intro ops
    induction ops with
    | nil => intro m _ h _; exact h
    | cons o ops ih =>
      intro m h h1 h2
      refine ih (m.step o) (fun x hx => h x (by simp [hx])) ?_ ?_
      · rcases h o (by simp) with rfl | ⟨c', w, hc, rfl | rfl⟩
        · exact h2
        · exact h1
        · exact (Function.update_of_ne hc.symm _ _).trans h1
      · rcases h o (by simp) with rfl | ⟨c', w, hc, rfl | rfl⟩
        · exact h2
        · exact (Function.update_of_ne hc.symm _ _).trans h2
        · exact h2
  exact key ops _ h (Function.update_self _ _ _) (Function.update_self _ _ _)

/-- C111, violated: a value written with `setValue` is lost at the next `update`. -/
theorem c111_set_violated : ((Manager.init 1).run [.setValue 0 2]).cur 0 = 2 ∧
    ((Manager.init 1).run [.setValue 0 2, .update]).cur 0 = 1 := by
  constructor <;> simp [Manager.run, Manager.step, Manager.init]

/-- Non-vacuity of C110: one point with the identity as behavior, two scalar functions. -/
noncomputable def exData : Data 2 :=
  ⟨true, lines2, [⟨1, [1, 2], fun G => (G, identitySym ℝ 2)⟩], fun i j => if i = j then 1 else 0, 6, 6, fun _ => 0,
    some (2, fun i j => if i = j then 1 else 0), some (1, fun i j => if i = j then 1 else 0, fun _ => 0), 2⟩

theorem exSym (A : Mat ℝ 2) (i j : Fin 2) : tmProd (identitySym ℝ 2) A i j = (A i j + A j i) / 2 := by
  have := fun t => get_identitySym (K := ℝ) (D := 2) (by norm_num) (by simp) t
  have e : tmProd (identitySym ℝ 2) A i j = ∑ k, ∑ l, Tensor.get (identitySym ℝ 2) ⟨i, j, k, l⟩ * A k l := rfl
  rw [e]
  simp only [this, Fin.sum_univ_two]
  fin_cases i <;> fin_cases j <;> simp <;> ring

example : Fitting exData where
  dim := by norm_num
  lines := fits2
  len q hq := by
    simp only [exData, List.mem_singleton] at hq
    subst hq
    exact fits2.len [1, 2]
  adm q hq := by
    simp only [exData, List.mem_singleton] at hq
    subst hq
    refine ⟨fun G i j k l => ?_, fun _ G hG => hG, fun _ G A i j => ?_⟩
    · show Tensor.get (identitySym ℝ 2) _ = Tensor.get (identitySym ℝ 2) _
      rw [get_identitySym (by norm_num) (by simp), get_identitySym (by norm_num) (by simp)]
      fin_cases i <;> fin_cases j <;> fin_cases k <;> fin_cases l <;> simp
    · show tmProd (identitySym ℝ 2) A i j = tmProd (identitySym ℝ 2) A j i
      rw [exSym, exSym]; ring

example (u : Nat → ℝ) : ∀ q ∈ exData.pts, IsTangentOn (fun H => exData.small = true → ∀ i j, H i j = H j i)
    (fun G => (q.behavior exData.small G).1) (tmProd (q.behavior exData.small (dofStrain exData q u)).2)
    (dofStrain exData q u) := by
  intro q hq
  simp only [exData, List.mem_singleton] at hq
  subst hq
  intro A H t _ hH hv i j
  show HasDerivAt (fun s => A s i j) (tmProd (identitySym ℝ 2) H i j) t
  rw [exSym, ← hH rfl i j, add_self_div_two]
  exact hv i j

example : adaptive 1 [(1, 2, 1), (3, 4, 2)] = some 2 :=
  c111_uniform (by norm_num) (by norm_num) (by norm_num) (by simp; norm_num)

end Verif.Props.Rigidity
