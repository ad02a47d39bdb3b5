import Verif.Lemmas.Behavior
/-!
C132 (choice of the material law), C133 (state of the quadrature points), C134 (stress read back), C135 (solver and
material state).
-/
noncomputable section
namespace Verif.Props.Behavior
open Verif.Tensor Verif.TensorConv Verif.Mech Verif.Plastic Verif.Hyper Verif.LogStrain Verif.Behavior Verif.Spec

variable {Q σ E R S C X T : Type}

/-! ### C132 -/

/-- C132: a law is selected exactly for the compatible pairs. -/
theorem c132_accepts (deformation law : Nat) :
    (∃ i, selectLaw deformation law = .ok i) ↔ CompatibleLaw deformation law := by
  unfold selectLaw CompatibleLaw
  rcases deformation with _ | _ | _ | n <;> rcases law with _ | _ | _ | _ | _ | _ | m <;> simp

/-- C132: every other pair is refused with an exception. -/
theorem c132_refuses (deformation law : Nat) (h : ¬ CompatibleLaw deformation law) :
    ∃ m, selectLaw deformation law = .throws m := by
  cases e : selectLaw deformation law with
  | ok i => exact absurd ((c132_accepts _ _).1 ⟨i, e⟩) h
  | throws m => exact ⟨m, rfl⟩
  | ub w =>
    unfold selectLaw at e
    split at e <;> first | split at e <;> simp at e | simp at e

/-- C132: different pairs select different laws. -/
theorem c132_distinct (d l d' l' : Nat) (i : LawId) (h : selectLaw d l = .ok i) (h' : selectLaw d' l' = .ok i) :
    d = d' ∧ l = l' := by
  have c := (c132_accepts d l).1 ⟨i, h⟩
  have c' := (c132_accepts d' l').1 ⟨i, h'⟩
  simp only [CompatibleLaw, List.mem_cons, Prod.mk.injEq, List.not_mem_nil, or_false] at c c'
  rcases c with ⟨rfl, rfl⟩ | ⟨rfl, rfl⟩ | ⟨rfl, rfl⟩ | ⟨rfl, rfl⟩ | ⟨rfl, rfl⟩ | ⟨rfl, rfl⟩ | ⟨rfl, rfl⟩ | ⟨rfl, rfl⟩ | ⟨rfl, rfl⟩ <;>
    rcases c' with ⟨rfl, rfl⟩ | ⟨rfl, rfl⟩ | ⟨rfl, rfl⟩ | ⟨rfl, rfl⟩ | ⟨rfl, rfl⟩ | ⟨rfl, rfl⟩ | ⟨rfl, rfl⟩ | ⟨rfl, rfl⟩ | ⟨rfl, rfl⟩ <;>
    first
    | exact ⟨rfl, rfl⟩
    | (simp only [selectLaw, Outcome.ok.injEq] at h h'
       exact absurd (h.trans h'.symm) (by simp))

/-- C132: an accepted behaviour has names. -/
theorem c132_names (deformation law : Nat) (h : CompatibleLaw deformation law) :
    (∃ n, deformationName deformation = .ok n) ∧ ∃ n, lawName law = .ok n := by
  simp only [CompatibleLaw, List.mem_cons, Prod.mk.injEq, List.not_mem_nil, or_false] at h
  rcases h with ⟨rfl, rfl⟩ | ⟨rfl, rfl⟩ | ⟨rfl, rfl⟩ | ⟨rfl, rfl⟩ | ⟨rfl, rfl⟩ | ⟨rfl, rfl⟩ | ⟨rfl, rfl⟩ | ⟨rfl, rfl⟩ | ⟨rfl, rfl⟩ <;>
    exact ⟨⟨_, rfl⟩, _, rfl⟩

example : selectLaw 1 2 = .ok .logVmis ∧ selectLaw 2 0 = .throws "Incompatible law with F_DEF" := ⟨rfl, rfl⟩

/-- C132: with a mesh of fewer than 2^31 quadrature points the store of the chosen law answers with the rules of the cells,
every point in the initial state; a cell that does not exist throws. -/
theorem c132_mesh_partial (nm : Numerics) (d0 : Data) (rules : List (List Q)) (deformation law : Nat) (o : Obj Q)
    (h : makeMesh nm d0 rules deformation law = .ok o) (hn : (rules.map List.length).sum < 2 ^ 31) :
    totalQP (o.stores o.id) = (rules.map List.length).sum ∧
    (∀ c < 2 ^ 31, ∀ r, rules[c]? = some r → cellQP (o.stores o.id) c = .ok r.length ∧
      ∀ q p, r[q]? = some p → pointAt (o.stores o.id) c q = .ok (p, (law2 nm d0 o.id).fresh)) ∧
    (∀ c < 2 ^ 31, rules.length ≤ c → cellQP (o.stores o.id) c = .throws "vector::at") := by
  unfold makeMesh at h
  cases hs : selectLaw deformation law with
  | throws m => rw [hs] at h; cases h
  | ub w => rw [hs] at h; cases h
  | ok i =>
    rw [hs] at h
    simp only [Outcome.bind_ok, Outcome.ok.injEq] at h
    have hst : o.stores o.id = build (law2 nm d0 o.id) rules := by rw [← h]; simp
    rw [hst]
    generalize law2 nm d0 o.id = L
    have hlen : (build L rules).map List.length = rules.map List.length := by simp [build, Function.comp_def]
    refine ⟨by rw [totalQP_eq _ (by rw [hlen]; exact hn), hlen], fun c hc r hr => ⟨?_, fun q p hp => ?_⟩, fun c hc hr => ?_⟩
    · have hr' : (build L rules)[c]? = some (r.map fun q => (q, L.fresh)) := by simp [build, hr]
      have hl : r.length < 2 ^ 31 := by
        refine lt_of_le_of_lt ?_ hn
        have hm : r.length ∈ rules.map List.length := List.mem_map.2 ⟨r, List.mem_of_getElem? hr, rfl⟩
        generalize rules.map List.length = l at hm
        induction l with
        | nil => simp at hm
        | cons a l ih =>
          rw [List.sum_cons]
          rcases List.mem_cons.1 hm with e | e
          · omega
          · have := ih e; omega
      unfold cellQP cellAt
      rw [narrow_of_lt hc, hr']
      simp [Outcome.bind_ok, narrow_of_lt hl]
    · rw [pointAt_eq _ hc]
      simp [build, hr, hp]
    · unfold cellQP cellAt
      rw [narrow_of_lt hc, List.getElem?_eq_none (by simpa [build] using hr)]
      rfl

example : ∃ o, makeMesh (Q := Nat) ⟨0, 0, fun _ => (fun _ => 0, fun _ _ => 0)⟩ ⟨1, 1, 0, 0, 0, 0, []⟩ [[7, 8], [9]] 0 3 =
    .ok o ∧ o.id = .hencky := ⟨_, rfl, rfl⟩

/-- C132: without a mesh there is no quadrature point, and asking for a cell throws. -/
theorem c132_empty (d0 : Data) (deformation law : Nat) (o : Obj Q) (h : make Q d0 deformation law = .ok o) (c : Nat) :
    totalQP (o.stores o.id) = 0 ∧ cellQP (o.stores o.id) c = .throws "vector::at" := by
  unfold make at h
  cases hs : selectLaw deformation law with
  | throws m => rw [hs] at h; cases h
  | ub w => rw [hs] at h; cases h
  | ok i =>
    rw [hs] at h
    simp only [Outcome.bind_ok, Outcome.ok.injEq] at h
    rw [← h]
    exact ⟨rfl, rfl⟩

/-- C132: the number of points, of cells and the points themselves are not changed by any call. -/
theorem c132_stable (L : PointLaw σ E R S) (l : List (Call E)) (s : Store Q σ) :
    (l.foldl (exec L) s).map List.length = s.map List.length ∧
    ∀ c q, quadAt (l.foldl (exec L) s) c q = quadAt s c q := by
  refine ⟨?_, fun c q => exec_quad L l c q s⟩
  induction l generalizing s with
  | nil => rfl
  | cons k l ih => rw [List.foldl_cons, ih, exec_lengths]

/-- C132 does not hold for cell numbers above 2^31: cell 2^32 of a mesh with one cell is answered with cell 0. -/
theorem c132_alias_violated :
    cellQP (build (elasticLaw ⟨1, 1, 0, 0, 0, 0, []⟩) [[(7 : Nat), 8]]) (2 ^ 32) = .ok 2 := by
  unfold cellQP cellAt
  have : narrow (2 ^ 32) = 0 := by unfold narrow; norm_num
  rw [this]
  simp [build, Outcome.bind_ok, narrow_of_lt]

/-- C132 does not hold for 2^31 points: the count is reported as 2^64 - 2^31. -/
theorem c132_count_violated (r : List Q) (hr : r.length = 2 ^ 30) :
    totalQP (build (elasticLaw ⟨1, 1, 0, 0, 0, 0, []⟩) [r, r]) = 2 ^ 64 - 2 ^ 31 := by
  have h1 : narrow (2 ^ 30) = 2 ^ 30 := narrow_of_lt (by norm_num)
  simp only [totalQP, build, List.map_cons, List.map_nil, List.foldl_cons, List.foldl_nil, List.length_map, hr, h1]
  unfold narrow
  norm_num

example : ∃ r : List Nat, r.length = 2 ^ 30 := ⟨List.replicate _ 0, List.length_replicate⟩

/-! ### C133 -/

/-- C133: an evaluation changes the state of its own point only. -/
theorem c133_frame (L : PointLaw σ E R S) (s : Store Q σ) (cell qp : Nat) (hc : cell < 2 ^ 31) (e : E) (c q : Nat)
    (h : ¬ (c = cell ∧ q = qp)) : stateAt (wholeAt L s cell qp e).2 c q = stateAt s c q := by
  rw [wholeAt_state L s hc]
  simp only [h, if_false, Option.map_id']

/-- C133: the state of a point after any calls is that of the calls on this point and the updates. -/
theorem c133_own (L : PointLaw σ E R S) (rules : List (List Q)) (l : List (Call E)) (hl : GoodCalls l) (c q : Nat)
    (p : Q) (hp : ((rules[c]?).bind fun r => r[q]?) = some p) :
    stateAt (l.foldl (exec L) (build L rules)) c q = some (pointRun L L.fresh (callsAt c q l)) := by
  rw [exec_state L l hl, build_state, hp]
  rfl

/-- C133: in 3D every law remembers of an evaluation only what an update commits. -/
theorem c133_laws3 (nm : Numerics) (d : Data) (i : LawId) : Memoryless (law3 nm d i) (committed i) :=
  law3_memoryless nm d i

/-- C133: in 2D every law remembers of an evaluation only what an update commits. -/
theorem c133_laws2 (nm : Numerics) (d : Data) (i : LawId) : Memoryless (law2 nm d i) (committed i) :=
  law2_memoryless nm d i

/-- C133: the committed values after any calls are those of the accepted strains alone. Evaluations that were not accepted
may have thrown. -/
theorem c133_history (L : PointLaw σ E R S) (κ : σ → C) (h : Memoryless L κ) (l : List (Option E))
    (hc : CleanUpdates L true L.fresh l) :
    κ (pointRun L L.fresh l) = κ (pointRun L L.fresh (directCalls (acceptedStrains none l))) ∧
    (l.getLast? = some none → pointRun L L.fresh l = pointRun L L.fresh (directCalls (acceptedStrains none l))) :=
  run_matches L κ h l L.fresh L.fresh none true ⟨rfl, h.fresh, rfl⟩ (fun _ => rfl) hc

/-- C133: the result of an evaluation is determined by the accepted strains and the strain evaluated. -/
theorem c133_result (L : PointLaw σ E R S) (κ : σ → C) (h : Memoryless L κ) (l : List (Option E))
    (hc : CleanUpdates L true L.fresh l) (e : E) :
    (L.whole (pointRun L L.fresh l) e).1 =
      (L.whole (pointRun L L.fresh (directCalls (acceptedStrains none l))) e).1 :=
  h.result _ _ _ (c133_history L κ h l hc).1

/-- C133: for the store of a 3D behaviour. -/
theorem c133_store3 (nm : Numerics) (d : Data) (i : LawId) (rules : List (List Q)) (l : List (Call (Mat ℝ 3 × Bool)))
    (hl : GoodCalls l) (c q : Nat) (hc' : c < 2 ^ 31) (p : Q) (hp : ((rules[c]?).bind fun r => r[q]?) = some p)
    (hc : CleanUpdates (law3 nm d i) true (law3 nm d i).fresh (callsAt c q l)) (e : Mat ℝ 3 × Bool) :
    (wholeAt (law3 nm d i) (l.foldl (exec (law3 nm d i)) (build (law3 nm d i) rules)) c q e).1 =
      ((law3 nm d i).whole (pointRun (law3 nm d i) (law3 nm d i).fresh
        (directCalls (acceptedStrains none (callsAt c q l)))) e).1 := by
  have h0 := c133_own (law3 nm d i) rules l hl c q p hp
  rw [← c133_result _ _ (law3_memoryless nm d i) _ hc e]
  generalize l.foldl (exec (law3 nm d i)) (build (law3 nm d i) rules) = s at h0 ⊢
  have hpt := pointAt_eq s hc' q
  unfold stateAt at h0
  cases h1 : s[c]? with
  | none => rw [h1] at h0; simp at h0
  | some cl =>
    rw [h1] at h0
    cases h2 : cl[q]? with
    | none => simp [h2] at h0
    | some x =>
      rw [h1] at hpt
      simp only [h2] at hpt
      simp only [Option.bind_some, h2, Option.map_some, Option.some.injEq] at h0
      rw [← h0]
      unfold wholeAt
      rw [hpt]

/-- C133: for the store of a 2D behaviour. -/
theorem c133_store2 (nm : Numerics) (d : Data) (i : LawId) (rules : List (List Q)) (l : List (Call (Mat ℝ 2 × Bool)))
    (hl : GoodCalls l) (c q : Nat) (hc' : c < 2 ^ 31) (p : Q) (hp : ((rules[c]?).bind fun r => r[q]?) = some p)
    (hc : CleanUpdates (law2 nm d i) true (law2 nm d i).fresh (callsAt c q l)) (e : Mat ℝ 2 × Bool) :
    (wholeAt (law2 nm d i) (l.foldl (exec (law2 nm d i)) (build (law2 nm d i) rules)) c q e).1 =
      ((law2 nm d i).whole (pointRun (law2 nm d i) (law2 nm d i).fresh
        (directCalls (acceptedStrains none (callsAt c q l)))) e).1 := by
  have h0 := c133_own (law2 nm d i) rules l hl c q p hp
  rw [← c133_result _ _ (law2_memoryless nm d i) _ hc e]
  generalize l.foldl (exec (law2 nm d i)) (build (law2 nm d i) rules) = s at h0 ⊢
  have hpt := pointAt_eq s hc' q
  unfold stateAt at h0
  cases h1 : s[c]? with
  | none => rw [h1] at h0; simp at h0
  | some cl =>
    rw [h1] at h0
    cases h2 : cl[q]? with
    | none => simp [h2] at h0
    | some x =>
      rw [h1] at hpt
      simp only [h2] at hpt
      simp only [Option.bind_some, h2, Option.map_some, Option.some.injEq] at h0
      rw [← h0]
      unfold wholeAt
      rw [hpt]

/-- Two evaluations, an update and an evaluation: only the second strain was accepted. -/
example (d : Data) (a b c : Mat ℝ 3 × Bool) :
    CleanUpdates (elasticLaw d) true (elasticLaw d).fresh [some a, some b, none, some c] ∧
    acceptedStrains none [some a, some b, none, some c] = [b] := ⟨⟨rfl, trivial⟩, rfl⟩

/-! ### C134 -/

/-- C134: in 3D the stress read from a quadrature point is the one its last successful evaluation returned, before and
after the update. -/
theorem c134_read3 (nm : Numerics) (d : Data) (i : LawId) : Readback (law3 nm d i) id := law3_readback nm d i

/-- C134: in 2D it is the in-plane block, for every law except `HENCKY_MISES`. -/
theorem c134_read2_partial (nm : Numerics) (d : Data) (i : LawId) (hi : i ≠ .hencky) : Readback (law2 nm d i) matrix2 :=
  law2_readback nm d i hi

/-- C134 is violated by `HENCKY_MISES` in 2D: the stress returned uses the norm of the deviator of the 2x2 block, the one
read back that of the 3x3 matrix. -/
theorem c134_hencky_violated :
    ¬ Readback (henckyLaw2 ⟨0, 1, 0, 0, 0, 0, []⟩) matrix2 := by
  intro h
  obtain ⟨v, hv, he⟩ := h.read ⟨0, 0⟩ (wStrain, true) _ rfl
  simp only [henckyLaw2, Outcome.ok.injEq] at hv
  rw [← hv] at he
  have h1 := congrFun (congrFun he 1) 1
  simp only [hencky2D, henckyStress, wStrain_norm2, wStrain_norm3, tildemu, tildelambda, Real.mul_self_sqrt (show (0:ℝ) ≤ 1 / 2 by norm_num),
    Real.mul_self_sqrt (show (0:ℝ) ≤ 2 / 3 by norm_num)] at h1
  simp [matrix2, matrix3D, wStrain, idm, trace, Fin.sum_univ_succ] at h1
  rw [Real.sqrt_inj (by norm_num) (by norm_num)] at h1
  norm_num at h1

/-- C134 is violated before the first evaluation of a finite deformation law: reading the stress throws, though the body
is at rest. -/
theorem c134_fresh_violated (d : Data) :
    (∃ m, (neoLaw d).stress (neoLaw d).fresh = .throws m) ∧ ∃ m, (cavLaw d).stress (cavLaw d).fresh = .throws m := by
  simp only [neoLaw, cavLaw, bonesLaw, neoStress, cavStress, checked, det_zero3, if_true]
  exact ⟨⟨_, rfl⟩, _, rfl⟩

/-! ### C135 -/

/-- C135: the outcome of the time loop depends only on the displacement and the committed values: what an abandoned Newton
step left in the quadrature points has no influence. -/
theorem c135_independent (L : PointLaw σ E R S) (κ : σ → C) (h : Memoryless L κ) (P : Problem X T E R)
    (iterMax sub fuel : Nat) (split : T → T × T) (b : Bool) (ts : List (T × Nat)) (x : X) (s s' : List (List σ))
    (hs : Agree κ s s') :
    SameRun κ (timeLoop L P iterMax sub split fuel b ts x s) (timeLoop L P iterMax sub split fuel b ts x s') :=
  timeLoop_agree L κ h P iterMax sub split fuel b ts x s s' hs

/-- C135: a Newton step that fails leaves the displacement and the committed values as they were. -/
theorem c135_failed_step (L : PointLaw σ E R S) (κ : σ → C) (h : Memoryless L κ) (P : Problem X T E R) (iterMax : Nat)
    (t : T) (x y : X) (s s' : List (List σ)) (hr : newtonStep L P iterMax t x s = .ok (false, y, s')) :
    y = x ∧ Agree κ s' s := by
  have := newtonLoop_keeps L κ h P t x iterMax 0 x s _ hr
  exact ⟨this.2 rfl, this.1⟩

/-- C135: when the time loop ends with success, every quadrature point holds the updated state of an evaluation at the
strain of the reported displacement, and this evaluation passed the convergence test. -/
theorem c135_success (L : PointLaw σ E R S) (P : Problem X T E R) (iterMax sub fuel : Nat) (split : T → T × T)
    (ts : List (T × Nat)) (x y : X) (s s' : List (List σ))
    (hr : timeLoop L P iterMax sub split fuel false ts x s = .ok (some (true, y, s'))) :
    ∃ rs t k, P.converged t k y rs = .ok true ∧ ∀ c q p, ((s'[c]?).bind fun l => l[q]?) = some p →
      ∃ a b r, L.whole a (P.strain y c q) = (.ok r, b) ∧ p = L.update b ∧ ((rs[c]?).bind fun l => l[q]?) = some r := by
  rcases timeLoop_success L P iterMax sub split fuel false ts x s _ hr rfl with ⟨h, _⟩ | ⟨s0, s1, rs, t, k, h1, h2, h3⟩
  · simp at h
  · refine ⟨rs, t, k, h2, fun c q p hp => ?_⟩
    simp only at h3
    rw [h3, List.getElem?_map] at hp
    cases hc : s1[c]? with
    | none => rw [hc] at hp; simp at hp
    | some cl =>
      rw [hc] at hp
      simp only [Option.map_some, Option.bind_some, List.getElem?_map] at hp
      cases hq : cl[q]? with
      | none => rw [hq] at hp; simp at hp
      | some b =>
        rw [hq] at hp
        simp only [Option.map_some, Option.some.injEq] at hp
        obtain ⟨a, r, e1, e2⟩ := evalCells_get L s0 (P.strain y) rs s1 h1 c q cl b hc hq
        exact ⟨a, b, r, e1, hp.symm, e2⟩

/-- C135: the stress read at a quadrature point after success is the stress at the reported displacement. -/
theorem c135_stress_partial {A V : Type} (L : PointLaw σ E (V × A) S) (part : S → V) (h : Readback L part)
    (P : Problem X T E (V × A)) (iterMax sub fuel : Nat) (split : T → T × T)
    (ts : List (T × Nat)) (x y : X) (s s' : List (List σ))
    (hr : timeLoop L P iterMax sub split fuel false ts x s = .ok (some (true, y, s'))) (c q : Nat) (p : σ)
    (hp : ((s'[c]?).bind fun l => l[q]?) = some p) :
    ∃ a r v, (L.whole a (P.strain y c q)).1 = .ok r ∧ L.stress p = .ok v ∧ part v = r.1 := by
  obtain ⟨rs, t, k, _, h2⟩ := c135_success L P iterMax sub fuel split ts x y s s' hr
  obtain ⟨a, b, r, e1, e2, _⟩ := h2 c q p hp
  obtain ⟨v, hv, hv'⟩ := h.read a (P.strain y c q) r (by rw [e1])
  refine ⟨a, r, v, by rw [e1], ?_, hv'⟩
  rw [e2, h.update]
  rw [e1] at hv
  exact hv

/-- A problem whose unknown is the strain of the only point and which never converges. -/
def wProblem : Problem (Mat ℝ 3) Unit (Mat ℝ 3 × Bool) (Mat ℝ 3 × Tens ℝ 3) where
  strain := fun x _ _ => (x, true)
  converged := fun _ _ _ _ => .ok false
  next := fun _ _ _ => idm 3

/-- The same problem, converged at once. -/
def wProblem' : Problem (Mat ℝ 3) Unit (Mat ℝ 3 × Bool) (Mat ℝ 3 × Tens ℝ 3) :=
  { wProblem with converged := fun _ _ _ _ => .ok true }

/-- The elastic data of the witness. -/
def wData : Data := ⟨1, 1, 0, 0, 0, 0, []⟩

/-- C135 is violated when the solver gives up: the reported displacement is the last converged one (zero strain), the stress
read from the quadrature points is that of the abandoned iterate. -/
theorem c135_abandoned_violated :
    ∃ p, timeLoop (elasticLaw wData) wProblem 2 0 (fun _ => ((), ())) 1 false [((), 0)] 0 [[⟨0, 0⟩]] =
        .ok (some (false, 0, [[p]])) ∧
      ∀ v, (elasticLaw wData).stress p = .ok v → v ≠ elasticStress wData 0 := by
  refine ⟨⟨0, idm 3⟩, rfl, fun v hv he => ?_⟩
  simp only [elasticLaw, bonesLaw, Outcome.ok.injEq] at hv
  have h1 := congrFun (congrFun (hv.trans he) 0) 0
  simp [elasticStress, wData, trace, idm, Fin.sum_univ_succ] at h1
  norm_num at h1

/-- A run that succeeds. -/
example : timeLoop (elasticLaw wData) wProblem' 2 0 (fun _ => ((), ())) 1 false [((), 0)] 0 [[⟨0, 0⟩]] =
    .ok (some (true, 0, [[⟨0, 0⟩]])) := rfl

/-- A step that fails. -/
example : newtonStep (elasticLaw wData) wProblem 2 () 0 [[⟨0, 0⟩]] = .ok (false, 0, [[⟨0, idm 3⟩]]) := rfl

end Verif.Props.Behavior
