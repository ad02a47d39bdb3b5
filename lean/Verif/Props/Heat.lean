import Mathlib.Algebra.Order.Archimedean.Basic
import Mathlib.Analysis.SpecialFunctions.Exp
import Mathlib.Analysis.Real.Pi.Bounds
import Verif.Lemmas.HeatExample
import Verif.Lemmas.HeatSquare
import Verif.Lemmas.HeatSteady
import Verif.Lemmas.HhoSolverExample
import Verif.Props.Nitsche
/-!
C179: the backward Euler program for the heat equation solves its discrete problem and is stable. C180: the error it
prints.
-/
namespace Verif.Props.Heat
open Finset Verif.Hho Verif.Spec.Hho Verif.Lemmas.Hho Verif.Nitsche Verif.Spec.Nitsche Verif.Lemmas.Nitsche Verif.Heat
  Verif.Spec.Heat Verif.Lemmas.Heat LocalMatrix

variable {K P : Type} [Field K] {S : Solver K} {c : Cfg P K}

/-- The assembled matrix is the L² product plus `dt` times the sum of the local forms, the assembled load the sum of
the local loads, for all unknowns. -/
theorem c179_system (hw : WellFormed c) (v u : Nat → K) :
    form (size c) (lhs S c) v u = l2 c v u + c.dt * stiff S c v u ∧ load (size c) (rhs S c) v = source S c v :=
  ⟨form_lhs hw v u, load_rhs hw v⟩

/-- One pass of the time loop: if `Mu_prev` carries the cell unknowns of `w`, the new solution satisfies the implicit
Euler equation with the previous value `w`, for all test functions, and the new `Mu_prev` carries the new solution. -/
theorem c179_step (hw : WellFormed c) (lu : HhoSolver.LU K) (hn : Nonsing (size c) (lhs S c)) {s : State K} {w : Nat → K}
    (hs : Carries c s.mu w) :
    (∀ v, l2 c v (step S c lu s).u + c.dt * stiff S c v (step S c lu s).u = l2 c v w + c.dt * source S c v) ∧
      Carries c (step S c lu s).mu (step S c lu s).u ∧ (step S c lu s).t = s.t + c.dt := by
  refine ⟨fun v => ?_, massAll_carries hw fun _ _ _ _ => rfl, rfl⟩
  rw [← form_lhs hw, ← load_rhs hw, ← hs v]
  have h : ∀ i < size c, app (size c) (lhs S c) (step S c lu s).u i =
      (if i < c.cbs * c.nc then s.mu i else 0) + c.dt * rhs S c i := fun i hi =>
    lu.solves (size c) (lhs S c) (fun r => (if r < c.cbs * c.nc then s.mu r else 0) + c.dt * rhs S c r) hn i hi
  unfold form load
  rw [sum_congr rfl fun i hi => by rw [h i (mem_range.1 hi)]]
  simp only [mul_add, sum_add_distrib]
  congr 1
  · unfold size
    rw [sum_range_add]
    have : ∑ x ∈ range (c.fbs * c.nf), v (c.cbs * c.nc + x) * (if c.cbs * c.nc + x < c.cbs * c.nc then
        s.mu (c.cbs * c.nc + x) else 0) = 0 := sum_eq_zero fun x _ => by rw [if_neg (by omega), mul_zero]
    rw [this, add_zero]
    exact sum_congr rfl fun i hi => by rw [if_pos (mem_range.1 hi), mul_comm]
  · rw [mul_sum]
    exact sum_congr rfl fun i _ => by ring

/-- Before the loop `Mu_prev` carries the L² projection of the initial value. -/
theorem c179_start (hw : WellFormed c) {w : Nat → K}
    (h : ∀ ci < c.nc, ∀ j < c.cbs, w (c.cbs * ci + j) = projectElem S (c.cell ci).elem c.k c.init 0 j) :
    Carries c (start S c).mu w := massAll_carries hw fun ci hc j hj => (h ci hc j hj).symm

/-- All solutions of the time loop satisfy the backward Euler scheme started at the projection of the initial value. -/
theorem c179_scheme (hw : WellFormed c) (lu : HhoSolver.LU K) (hn : Nonsing (size c) (lhs S c)) {w : Nat → Nat → K}
    (h0 : ∀ ci < c.nc, ∀ j < c.cbs, w 0 (c.cbs * ci + j) = projectElem S (c.cell ci).elem c.k c.init 0 j)
    (h1 : ∀ i, w (i + 1) = (iter S c lu (i + 1)).u) (i : Nat) (v : Nat → K) :
    l2 c v (w (i + 1)) + c.dt * stiff S c v (w (i + 1)) = l2 c v (w i) + c.dt * source S c v ∧
      (iter S c lu i).t = i * c.dt := by
  have hc : ∀ i, Carries c (iter S c lu i).mu (w i) ∧ (iter S c lu i).t = i * c.dt := by
    intro i
    induction i with
    | zero => exact ⟨c179_start hw h0, by simp [iter, start]⟩
    | succ i ih =>
      obtain ⟨-, h2, h3⟩ := c179_step hw lu hn ih.1
      refine ⟨?_, ?_⟩
      · rw [h1]; exact h2
      · rw [iter, h3, ih.2]; push_cast; ring
  refine ⟨?_, (hc i).2⟩
  rw [h1]
  exact (c179_step hw lu hn (hc i).1).1 v

/-- The discrete operator and the load: on every cell the energy of the reconstructions and the stabilization, on every
boundary face the weak boundary conditions with the penalization. -/
theorem c179_operator (hw : WellFormed c) (hn : ∀ ci < c.nc, Nonsing (((c.cell ci).elem.basis (c.k + 1)).size - 1)
      (lapLhs c.d none ((c.cell ci).elem.basis (c.k + 1)) (c.k + 1) (c.cell ci).elem)) (v u : Nat → K) :
    let fs := fun ci => (c.cell ci).faces.map BFace.toFace
    let rb := fun ci => (c.cell ci).elem.basis (c.k + 1)
    let n := fun ci => c.cbs + (c.cell ci).faces.length * c.fbs
    let R := fun ci => (laplacian c.d none false S (c.k + 1) c.k c.k (c.cell ci).elem (fs ci)).1
    let r := fun ci (w : Nat → K) => app (n ci) (R ci) (onCell c ci w)
    let tr := fun ci (fc : BFace P K) o (w : Nat → K) => evalFn (fc.basis c.k) (seg o (onCell c ci w))
    stiff S c v u = ∑ ci ∈ range c.nc, (quad ((c.cell ci).elem.integrate (2 * c.k)) (fun x =>
        dot c.d (evalGradTail (rb ci) (r ci v) x) (evalGradTail (rb ci) (r ci u) x)) +
      form (n ci) (hho S true (c.k + 1) c.k c.k (c.cell ci).elem (R ci) (fs ci)) (onCell c ci v) (onCell c ci u) +
      bndSum c.k (fun fc o =>
        -quad (fc.integrate (2 * (c.k + 1))) (fun x => tr ci fc o v x * normalD c.d (rb ci) (r ci u) fc.normal x) -
        quad (fc.integrate (2 * (c.k + 1))) (fun x => tr ci fc o u x * normalD c.d (rb ci) (r ci v) fc.normal x) +
        c.pen / fc.meas * quad (fc.integrate (2 * (c.k + 1))) fun x => tr ci fc o v x * tr ci fc o u x)
        (c.cell ci).faces c.cbs) ∧
    source S c v = ∑ ci ∈ range c.nc, (quad ((c.cell ci).elem.integrate (2 * (c.k + 1))) (fun x =>
        c.f x * evalFn ((c.cell ci).elem.basis c.k) (onCell c ci v) x) +
      bndSum c.k (fun fc o =>
        c.pen / fc.meas * quad (fc.integrate (2 * (c.k + 1))) (fun x => c.g x * tr ci fc o v x) -
        quad (fc.integrate (2 * (c.k + 1))) fun x => c.g x * normalD c.d (rb ci) (r ci v) fc.normal x)
        (c.cell ci).faces c.cbs) := by
  intro fs rb n R r tr
  have key : ∀ ci < c.nc, _ := fun ci hci => Nitsche.c178_form (d := c.d) (cell := (c.cell ci).elem)
    (faces := (c.cell ci).faces) (c.k + 1) c.k c.k (hw.face ci hci) (R ci)
    (addMat (laplacian c.d none false S (c.k + 1) c.k c.k (c.cell ci).elem (fs ci)).2
      (hho S true (c.k + 1) c.k c.k (c.cell ci).elem (R ci) (fs ci)))
    (setSegment (fun _ => 0) 0 c.cbs (rhsOf (c.cell ci).elem c.k 1 ((c.cell ci).elem.basis c.k) c.f)) c.g c.pen
    (onCell c ci v) (onCell c ci u)
  refine ⟨sum_congr rfl fun ci hci => ?_, sum_congr rfl fun ci hci => ?_⟩
  · have hci := mem_range.1 hci
    have h := (key ci hci).1
    rw [← localSize_eq hw hci, hw.cell ci hci, form_addMat] at h
    refine h.trans ?_
    rw [show form (localSize c (c.cell ci)) (laplacian c.d none false S (c.k + 1) c.k c.k (c.cell ci).elem (fs ci)).2
      (onCell c ci v) (onCell c ci u) = _ from (HhoLaplacian.c82_energy S (tens := none) trivial false (rb ci) (c.k + 1) c.k c.k
        (n ci) (hn ci hci) (onCell c ci v) (onCell c ci u)).1]
    rfl
  · have hci := mem_range.1 hci
    have h := (key ci hci).2
    rw [← localSize_eq hw hci, hw.cell ci hci, load_cell hw hci] at h
    exact h

/-- Steady states: if the boundary value is a polynomial of degree `k + 1` with `-Δg = f`, its interpolate balances the
load, and if the initial value has the same projection on the cells, every step returns it, for every time step. -/
theorem c179_steady (hw : WellFormed c) (hm : Matching c) {N : Nat} {gu : P → Nat → K} {u : Nat → K}
    (hu : ∀ ci < c.nc, SteadyCell c N gu u ci) :
    (∀ v, stiff S c v u = source S c v) ∧
    ∀ lu : HhoSolver.LU K, Nonsing (size c) (lhs S c) →
      (∀ ci < c.nc, ∀ j < c.cbs, u (c.cbs * ci + j) = projectElem S (c.cell ci).elem c.k c.init 0 j) →
      ∀ i, ∀ r < size c, (iter S c lu (i + 1)).u r = u r := by
  have hst : ∀ v, stiff S c v u = source S c v := by
    intro v
    unfold stiff source
    rw [sum_congr rfl fun ci hci => steady_cell hw (mem_range.1 hci) (hu ci (mem_range.1 hci)) v, sum_add_distrib,
      inner_cancel hw hm, add_zero]
  refine ⟨hst, fun lu hn h0 => ?_⟩
  -- a step that starts from `u` returns `u`
  have hstep : ∀ s : State K, Carries c s.mu u → ∀ r < size c, (step S c lu s).u r = u r := by
    intro s hs
    have h := (c179_step hw lu hn hs).1
    refine solve_unique hn fun i hi => ?_
    have e : ∀ w, form (size c) (lhs S c) (fun r => if r = i then 1 else 0) w = app (size c) (lhs S c) w i := by
      intro w
      unfold form
      rw [sum_eq_single i (fun b _ hb => by simp [hb]) (fun h => absurd (mem_range.2 hi) h)]
      simp
    rw [← e, ← e, form_lhs hw, form_lhs hw, h, hst]
  have hcar : ∀ i, Carries c (iter S c lu i).mu u := by
    intro i
    induction i with
    | zero => exact c179_start hw h0
    | succ i ih =>
      have hs := hstep _ ih
      refine massAll_carries hw fun ci hci j hj => hs _ ?_
      have : c.cbs * (ci + 1) ≤ c.cbs * c.nc := Nat.mul_le_mul_left _ hci
      unfold size
      rw [Nat.mul_add, Nat.mul_one] at this
      omega
  exact fun i => hstep _ (hcar i)

/-- With the data of the program (zero load and zero boundary value) there is no source. -/
theorem c179_homogeneous (hw : WellFormed c) (hf : ∀ x, c.f x = 0) (hg : ∀ x, c.g x = 0) (v : Nat → K) :
    source S c v = 0 := by
  refine sum_eq_zero fun ci hci => ?_
  have hci := mem_range.1 hci
  have hsz : ∀ fs : List (BFace P K), (∀ f ∈ fs, (f.basis c.k).size = c.fbs) →
      facesDofs (uniform c.k (fs.map BFace.toFace)) = fs.length * c.fbs := by
    intro fs
    induction fs with
    | nil => intro _; simp [uniform, facesDofs]
    | cons f fs ih =>
      intro h
      rw [facesDofs_uniform_cons, h f List.mem_cons_self, ih fun f hf => h f (List.mem_cons_of_mem _ hf), List.length_cons]
      ring
  have hn : localSize c (c.cell ci) = ((c.cell ci).elem.basis c.k).size +
      facesDofs (uniform c.k ((c.cell ci).faces.map BFace.toFace)) := by
    rw [hsz _ (hw.face ci hci), hw.cell ci hci]; rfl
  have e := (Nitsche.c178_form (d := c.d) (cell := (c.cell ci).elem) (faces := (c.cell ci).faces) (c.k + 1) c.k c.k
    (hw.face ci hci) (laplacian c.d none false S (c.k + 1) c.k c.k (c.cell ci).elem ((c.cell ci).faces.map BFace.toFace)).1
    (addMat (laplacian c.d none false S (c.k + 1) c.k c.k (c.cell ci).elem ((c.cell ci).faces.map BFace.toFace)).2
      (hho S true (c.k + 1) c.k c.k (c.cell ci).elem
        (laplacian c.d none false S (c.k + 1) c.k c.k (c.cell ci).elem ((c.cell ci).faces.map BFace.toFace)).1
        ((c.cell ci).faces.map BFace.toFace)))
    (setSegment (fun _ => 0) 0 c.cbs (rhsOf (c.cell ci).elem c.k 1 ((c.cell ci).elem.basis c.k) c.f)) c.g c.pen
    (onCell c ci v) (fun _ => 0)).2
  rw [← hn] at e
  refine e.trans ?_
  have z : ∀ i, setSegment (fun _ => 0) 0 c.cbs (rhsOf (c.cell ci).elem c.k 1 ((c.cell ci).elem.basis c.k) c.f) i = 0 := by
    intro i
    unfold setSegment
    split_ifs
    · rw [rhsOf_eq]
      simp [hf, quad]
    · rfl
  have z2 : ∀ (fs : List (BFace P K)) o, bndSum c.k (fun _ _ => (0 : K)) fs o = 0 := by
    intro fs
    induction fs with
    | nil => intro o; rfl
    | cons f fs ih => intro o; simp [bndSum, ih]
  have z3 : load (localSize c (c.cell ci))
      (setSegment (fun _ => 0) 0 c.cbs (rhsOf (c.cell ci).elem c.k 1 ((c.cell ci).elem.basis c.k) c.f)) (onCell c ci v) = 0 :=
    sum_eq_zero fun i _ => by rw [z, zero_mul]
  rw [z3, zero_add]
  refine (bndSum_congr (h' := fun _ _ => 0) (fun f _ _ o => ?_) _).trans (z2 _ _)
  simp [hg, quad]

/-- The energy balance of a step without source: what the L² norm loses is the jump and twice the dissipation. -/
theorem c179_balance {u w : Nat → K} (h : ∀ v, l2 c v u + c.dt * stiff S c v u = l2 c v w) :
    l2 c u u + l2 c (fun r => u r - w r) (fun r => u r - w r) + 2 * c.dt * stiff S c u u = l2 c w w := by
  have h1 := h u
  have e : l2 c (fun r => u r - w r) (fun r => u r - w r) = l2 c u u - l2 c u w - (l2 c u w - l2 c w w) := by
    rw [l2_sub_left, l2_comm u, l2_sub_left, l2_comm w (fun r => u r - w r), l2_sub_left, l2_comm w u]
  rw [e]
  linear_combination 2 * h1

section ordered
variable {K : Type} [Field K] [LinearOrder K] [IsStrictOrderedRing K] {S : Solver K} {c : Cfg P K}

/-- The scheme is stable for every step size if the weights are non-negative and the discrete operator is positive
semidefinite (C178): without source the L² norm of the solutions does not grow. -/
theorem c179_stable_partial (hw : WellFormed c) (lu : HhoSolver.LU K) (hn : Nonsing (size c) (lhs S c))
    (hf : ∀ x, c.f x = 0) (hg : ∀ x, c.g x = 0) (hdt : 0 ≤ c.dt) (hpos : ∀ v, 0 ≤ stiff S c v v)
    (hq : ∀ ci < c.nc, ∀ q ∈ (c.cell ci).elem.integrate (2 * c.k), 0 ≤ q.w) {w : Nat → Nat → K}
    (h0 : ∀ ci < c.nc, ∀ j < c.cbs, w 0 (c.cbs * ci + j) = projectElem S (c.cell ci).elem c.k c.init 0 j)
    (h1 : ∀ i, w (i + 1) = (iter S c lu (i + 1)).u) (i : Nat) :
    l2 c (w (i + 1)) (w (i + 1)) ≤ l2 c (w i) (w i) ∧ l2 c (w i) (w i) ≤ l2 c (w 0) (w 0) := by
  have hnn : ∀ v, 0 ≤ l2 c v v := fun v => sum_nonneg fun ci hci =>
    quad_nonneg (hq ci (mem_range.1 hci)) fun q _ => mul_self_nonneg _
  have key : ∀ i, l2 c (w (i + 1)) (w (i + 1)) ≤ l2 c (w i) (w i) := by
    intro i
    have h := c179_balance (S := S) (c := c) (u := w (i + 1)) (w := w i) fun v => by
      have := (c179_scheme hw lu hn h0 h1 i v).1
      rwa [c179_homogeneous hw hf hg, mul_zero, add_zero] at this
    have a := hnn fun r => w (i + 1) r - w i r
    have b := mul_nonneg hdt (hpos (w (i + 1)))
    nlinarith
  refine ⟨key i, ?_⟩
  induction i with
  | zero => exact le_rfl
  | succ i ih => exact (key i).trans ih

/-- Violation: with the penalization 1.0 of the program, on the unit square with constant unknowns, the assembled matrix
and the discrete operator are not positive for any positive time step. -/
theorem c179_violation (dt : ℚ) (hdt : 0 < dt) :
    WellFormed (sqCfg dt) ∧ (sqCfg dt).pen = 1 ∧ stiff (exactSolver ℚ) (sqCfg dt) sqVec sqVec < 0 ∧
      form (size (sqCfg dt)) (lhs (exactSolver ℚ) (sqCfg dt)) sqVec sqVec < 0 := by
  have hs := sqCfg_stiff dt
  refine ⟨sqCfg_wf dt, rfl, by rw [hs]; norm_num, ?_⟩
  rw [(c179_system (sqCfg_wf dt) sqVec sqVec).1, hs]
  have h0 : l2 (sqCfg dt) sqVec sqVec = 0 := by
    change l2 (sqCfg 0) sqVec sqVec = 0
    decide +kernel
  rw [h0, show (sqCfg dt).dt = dt from rfl]
  linarith

example := c179_violation (1 / 100) (by norm_num)

/-- The time loop: for a positive step it makes the passes with `i·dt < 2`, the last solution belongs to the first time
that is not less than two, and the accumulated error is the sum over the passes of `dt` times the squared distance of
the gradients of solution `i + 1` and of the projection of the exact solution at the time `i·dt`. -/
theorem c180_loop [Archimedean K] (hw : WellFormed c) (lu : HhoSolver.LU K) (hdt : 0 < c.dt) :
    ∃ N : Nat, (∀ i < N, (i : K) * c.dt < 2) ∧ 2 ≤ (N : K) * c.dt ∧
      (∀ fuel ≥ N, timeLoop S c lu fuel (start S c) = some (iter S c lu N)) ∧
      (iter S c lu N).err = c.dt * ∑ i ∈ range N, gradDist c (iter S c lu (i + 1)).u fun ci =>
        projectElem S (c.cell ci).elem c.k (c.sol (i * c.dt)) 0 := by
  classical
  have ht : ∀ i, (iter S c lu i).t = i * c.dt := by
    intro i
    induction i with
    | zero => simp [iter, start]
    | succ i ih => rw [iter, show (step S c lu (iter S c lu i)).t = (iter S c lu i).t + c.dt from rfl, ih]; push_cast; ring
  have hex : ∃ N : Nat, 2 ≤ (N : K) * c.dt := by
    obtain ⟨N, hN⟩ := exists_nat_ge (2 / c.dt)
    exact ⟨N, (div_le_iff₀ hdt).1 hN⟩
  refine ⟨Nat.find hex, fun i hi => not_le.1 (Nat.find_min hex hi), Nat.find_spec hex, ?_, ?_⟩
  · have key : ∀ (m i fuel : Nat), i + m = Nat.find hex → m ≤ fuel → timeLoop S c lu fuel (iter S c lu i) =
        some (iter S c lu (Nat.find hex)) := by
      intro m
      induction m with
      | zero =>
        intro i fuel hi _
        rw [Nat.add_zero] at hi
        subst hi
        have : ¬ (iter S c lu (Nat.find hex)).t < 2 := by rw [ht]; exact not_lt.2 (Nat.find_spec hex)
        cases fuel <;> simp [timeLoop, this]
      | succ m ih =>
        intro i fuel hi hf
        obtain ⟨fuel, rfl⟩ := Nat.exists_eq_add_of_le' (show 1 ≤ fuel by omega)
        have : (iter S c lu i).t < 2 := by rw [ht]; exact not_le.1 (Nat.find_min hex (show i < Nat.find hex by omega))
        rw [timeLoop, if_pos this]
        exact ih (i + 1) fuel (by omega) (by omega)
    intro fuel hf
    exact key _ 0 fuel (by omega) hf
  · generalize Nat.find hex = N
    induction N with
    | zero => simp [iter, start]
    | succ N ih =>
      rw [iter, show (step S c lu (iter S c lu N)).err =
        errStep S c (iter S c lu N).t (step S c lu (iter S c lu N)).u (iter S c lu N).err from rfl, errStep_eq hw, ih, ht,
        sum_range_succ, mul_add]
      rfl

/-- For a step that is not positive the time loop does not end. -/
theorem c180_endless (lu : HhoSolver.LU K) (hdt : c.dt ≤ 0) (fuel : Nat) : timeLoop S c lu fuel (start S c) = none := by
  have key : ∀ (fuel : Nat) (s : State K), s.t ≤ 0 → timeLoop S c lu fuel s = none := by
    intro fuel
    induction fuel with
    | zero => intro s hs; rw [timeLoop, if_pos (hs.trans_lt two_pos)]
    | succ n ih =>
      intro s hs
      rw [timeLoop, if_pos (hs.trans_lt two_pos)]
      exact ih _ (add_nonpos hs hdt)
  exact key fuel _ le_rfl

end ordered

/-- The error is measured against the previous time level: for an exact solution `e(t) s(x)`, unknowns that are the
projection of the exact solution at the new time are charged `dt (e(t+dt) - e(t))² |∇πs|²`, those of the old time
nothing. For the factor of the program and every step the charge is not zero unless the projection is constant. -/
theorem c180_violation (hw : WellFormed c)
    (hm : ∀ ci < c.nc, Nonsing ((c.cell ci).elem.basis c.k).size (cellMass c (c.cell ci))) {e : K → K} {s : P → K}
    (hsol : ∀ t x, c.sol t x = e t * s x) {p : Nat → K}
    (hp : ∀ ci < c.nc, ∀ j < c.cbs, p (c.cbs * ci + j) = projectElem S (c.cell ci).elem c.k s 0 j) (t err : K) :
    errStep S c t (fun r => e (t + c.dt) * p r) err =
        err + c.dt * ((e (t + c.dt) - e t) ^ 2 * gradDist c p fun _ _ => 0) ∧
      errStep S c t (fun r => e t * p r) err = err ∧
      ∀ t dt : ℝ, dt ≠ 0 → Real.exp (-2 * Real.pi * Real.pi * 1 * 1 * (t + dt)) - Real.exp (-2 * Real.pi * Real.pi * 1 * 1 * t) ≠ 0 := by
  have key : ∀ a : K, errStep S c t (fun r => a * p r) err = err + c.dt * ((a - e t) ^ 2 * gradDist c p fun _ _ => 0) := by
    intro a
    rw [errStep_eq hw]
    congr 2
    unfold gradDist
    rw [mul_sum]
    refine sum_congr rfl fun ci hci => ?_
    have hci := mem_range.1 hci
    rw [← quad_mul]
    refine quad_congr fun q _ => ?_
    have hd : ∀ x, evalGrad ((c.cell ci).elem.basis c.k) (fun i => a * p (c.cbs * ci + i) -
        projectElem S (c.cell ci).elem c.k (c.sol t) 0 i) x = fun g => (a - e t) *
        evalGrad ((c.cell ci).elem.basis c.k) (fun i => p (c.cbs * ci + i) - 0) x g := by
      intro x
      funext g
      unfold evalGrad
      rw [mul_sum]
      refine sum_congr rfl fun i hi => ?_
      have hi := mem_range.1 hi
      dsimp only
      rw [show c.sol t = fun x => e t * s x from funext fun x => hsol t x, project_smul (hm ci hci) _ _ hi,
        ← hp ci hci i (by rwa [hw.cell ci hci] at hi)]
      ring
    simp only [hd, dot]
    rw [mul_sum]
    exact sum_congr rfl fun g _ => by ring
  refine ⟨key _, ?_, fun t dt hdt h => ?_⟩
  · rw [key, sub_self]; ring
  · have h := Real.exp_injective (sub_eq_zero.1 h)
    have hpi := Real.pi_ne_zero
    apply hdt
    have : Real.pi * Real.pi * dt = 0 := by linarith
    simpa [hpi] using this

/-! ### The segment -/

/-- The stability of the program on the segment. -/
example (sol : ℚ → ℚ → ℚ) (w : Nat → Nat → ℚ) :=
  c179_stable_partial (segCfg_wf (fun _ => 0) (fun _ => 0) (fun x => x) sol) (Verif.Lemmas.HhoSolver.exactLU ℚ)
    (segCfg_nonsing _ _ _ _) (fun _ => rfl) (fun _ => rfl) (by norm_num [segCfg])
    (fun v => by
      obtain ⟨h1, h2⟩ := segCfg_stiff (fun _ => 0) (fun _ => 0) (fun x => x) sol v
      linarith)
    (fun ci _ q hq => by
      simp only [segCfg, segCell, List.mem_cons, List.not_mem_nil, or_false] at hq
      rcases hq with rfl | rfl | rfl | rfl | rfl <;> norm_num) (w := w)

/-- The operator on the segment. -/
example (f g i : ℚ → ℚ) (sol : ℚ → ℚ → ℚ) := c179_operator (S := exactSolver ℚ) (segCfg_wf f g i sol) fun _ _ => segNonsing

/-- With the source `-2` and the boundary and initial value `x²` the program stays at the interpolate of `x²`. -/
example (sol : ℚ → ℚ → ℚ) (i : Nat) : ∀ r < 4, (iter (exactSolver ℚ) (segCfg (fun _ => -2) (fun x => x ^ 2) (fun x => x ^ 2) sol)
    (Verif.Lemmas.HhoSolver.exactLU ℚ) (i + 1)).u r = segVec r :=
  (c179_steady (segCfg_wf _ _ _ sol) (segMatching _ _ _ sol) fun ci hci => by
    have : ci = 0 := by
      have : ci < 1 := hci
      omega
    subst this
    exact segSteady _ sol).2 _ (segCfg_nonsing _ _ _ sol)
    (fun ci hci j hj => by
      have : ci = 0 := by
        have : ci < 1 := hci
        omega
      subst this
      rw [Nat.mul_zero, Nat.zero_add]
      exact (segProject hj).symm) i

/-- With the step `1/10` of the segment the loop makes a finite number of passes. -/
example := c180_loop (S := exactSolver ℚ) (segCfg_wf (fun _ => 0) (fun _ => 0) (fun x => x) fun t x => (1 - t) * x)
  (Verif.Lemmas.HhoSolver.exactLU ℚ) (by norm_num [segCfg])

/-- On the segment, for the exact solution `(1 - t) x`: unknowns without any error at the new time are charged `1/1000`
in every pass. -/
example (t : ℚ) : let c := segCfg (fun _ => 0) (fun _ => 0) (fun x => x) fun t x => (1 - t) * x
    errStep (exactSolver ℚ) c t (fun r => (1 - (t + c.dt)) * projectElem (exactSolver ℚ) segCell 1 (fun x => x) 0 r) 0 =
      1 / 1000 := by
  intro c
  have h := (c180_violation (S := exactSolver ℚ) (c := c) (segCfg_wf _ _ _ _) (fun ci _ => segMass) (e := fun t => 1 - t)
    (s := fun x => x) (fun _ _ => rfl) (p := fun r => projectElem (exactSolver ℚ) segCell 1 (fun x => x) 0 r)
    (fun ci hc j hj => by
      have : ci = 0 := by
        have : ci < 1 := hc
        omega
      subst this
      simp [c, segCfg]) t 0).1
  rw [h]
  have hp : ∀ j < 2, projectElem (exactSolver ℚ) segCell 1 (fun x => x) 0 j = if j = 1 then 1 else 0 := by
    intro j hj
    refine solve_unique segMass (x := projectElem (exactSolver ℚ) segCell 1 (fun x => x) 0)
      (y := fun j => if j = 1 then 1 else 0) (fun i hi => ?_) j hj
    have h1 := (exactSolver ℚ).solves _ _ (rhsOf segCell 1 0 (segCell.basis 1) fun x => x)
      (mass_sym segCell 1 _ (segCell.basis 1)) segMass i hi
    refine h1.trans ?_
    rw [rhsOf_eq]
    simp only [app, sum_range_succ, range_zero, sum_empty, mass_eq]
    interval_cases i <;> simp [quad, segCell, lineBasis]
  have hg : gradDist c (fun r => projectElem (exactSolver ℚ) segCell 1 (fun x => x) 0 r) (fun _ _ => 0) = 1 := by
    unfold gradDist
    rw [show c.nc = 1 from rfl, sum_range_one]
    have e : ∀ x g, evalGrad (segCell.basis 1) (fun i => projectElem (exactSolver ℚ) segCell 1 (fun x => x) 0 (2 * 0 + i) - 0)
        x g = 1 := by
      intro x g
      change ∑ j ∈ range 2, _ = _
      rw [sum_range_succ, sum_range_succ, range_zero, sum_empty]
      simp only [Nat.mul_zero, Nat.zero_add]
      rw [hp 0 (by omega), hp 1 (by omega)]
      simp [segCell, lineBasis]
    change quad _ (fun x => dot 1 (evalGrad (segCell.basis 1) _ x) (evalGrad (segCell.basis 1) _ x)) = 1
    refine (quad_congr (v := fun _ => 1) fun q _ => ?_).trans ?_
    · simp only [dot, sum_range_one]
      rw [show evalGrad (segCell.basis 1) (fun i => projectElem (exactSolver ℚ) segCell 1 (fun x => x) 0 (c.cbs * 0 + i) - 0)
        q.pt 0 = 1 from e q.pt 0, one_mul]
    · change quad (segCell.integrate 2) _ = 1
      simp [quad, segCell]
      norm_num
  rw [hg]
  simp only [c, segCfg]
  ring

end Verif.Props.Heat
