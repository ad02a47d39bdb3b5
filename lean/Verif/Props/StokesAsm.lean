import Verif.Lemmas.StokesAsm
/-!
Properties of the assembly of the Stokes system (C128) and of the local velocities and pressures of its solution (C129).
`tab s` are the unknowns: cells, faces, pressures, multiplier; `resFrom` sums the residuals of the local saddle point
systems `[[A, Bᵀ, 0], [B, 0, m], [0, mᵀ, 0]]`.
-/
namespace Verif.Props.StokesAsm
open Finset Verif.BoundaryCond Verif.Assembly Verif.Spec Verif.StokesAsm

variable {K : Type} [CommRing K]

/-! ### C128: assembly -/

/-- Numbers: cells, then unknown faces, then pressures, then the multiplier; together `0 .. size - 1`. -/
theorem c128_numbering (s : Cfg) :
    (∀ c < s.nC, ∀ i, dofNumber (tab s) c i = c * s.cbsA + i) ∧
    (∀ f, s.dir[f]? = some false → ∀ i, dofNumber (tab s) (s.nC + f) i = s.cbsA * s.nC + unknownPos s.dir f * s.fbs + i) ∧
    (∀ c < s.nC, ∀ i, dofNumber (tab s) (s.nC + s.faces.length + c) i = s.bOff c + i) ∧
    (∀ i, dofNumber (tab s) (s.nC + s.faces.length + s.nC) i = s.mOff + i) ∧ numFree (tab s) = s.size :=
  ⟨fun c hc => (tab_cell s c hc).2, fun f hf => (tab_face s f _ hf).2 rfl, fun c hc => (tab_pressure s c hc).2,
    (tab_mult s).2, numFree_tab s⟩

/-- The residual of the assembled system at each row is the sum of the residuals of the cells, with the projected boundary
values at the Dirichlet faces. `assemble` takes the cell part of the load only (`full = false`). -/
theorem c128_residual_partial (s : Cfg) (hd : s.dim ≠ 0) (h : FullTypes s) (proj : Nat → Nat → K) (full : Bool)
    (cells : List (StokesCell K)) (hn : cells.length = s.nC) (hx : ∀ x ∈ cells, GoodStokesCell s x) :
    ∃ A b, assembleStokes s proj full cells = .ok (A, b) ∧
      ∀ (u : Nat → K) (y : Nat × Nat), IsFreeDof (tab s) y.1 y.2 →
        (∑ j ∈ range s.size, A (dofNumber (tab s) y.1 y.2) j * u j) - b (dofNumber (tab s) y.1 y.2) =
          resFrom s full (dofValue (tab s) (val s proj) u) 0 cells y :=
  assembleStokes_spec s hd h proj full cells hn hx

/-- `stokes_assembler_alg`, with the separate assembly of the two sides, gives the same system as `assemble_alg`. -/
theorem c128_alg_partial (s : Cfg) (hd : s.dim ≠ 0) (h : FullTypes s) (proj : Nat → Nat → K) (cells : List (StokesCell K))
    (hn : cells.length = s.nC) (hx : ∀ x ∈ cells, GoodStokesCell s x) :
    ∃ A b b', assembleStokes s proj true cells = .ok (A, b) ∧ assembleStokesAlg s proj cells = .ok (A, b') ∧
      ∀ g, b g = b' g := assembleStokesAlg_spec s hd h proj cells hn hx

/-- A face with one prescribed component fails the assertion of the constructor. -/
theorem c128_component_violated :
    construct ⟨2, 1, 2, 1, 1, [(true, DX)]⟩ = .ub "assert: face_dofs == fbs_A * num_other_faces" := rfl

/-- One cell with one clamped face. -/
def clampedCfg : Cfg := ⟨2, 1, 1, 1, 1, [(true, CLAMPED)]⟩
/-- Its local matrices. -/
def exCell : StokesCell Rat :=
  ⟨[0], 3, fun i j => if i = j then 1 else 0, fun _ j => if j < 2 then 1 else 0, fun _ => 1, fun _ => 0⟩

/-- On a clamped face the boundary function is eliminated instead of zero. -/
theorem c128_clamped_violated :
    ∃ A b, assembleStokes clampedCfg (fun _ _ => (5 : Rat)) true [exCell] = .ok (A, b) ∧ b 1 = -5 := by
  exact ⟨_, _, rfl, by decide +kernel⟩

/-- One cell, a Dirichlet face and two free faces. -/
def exCfg : Cfg := ⟨2, 1, 2, 1, 1, [(true, DIRICHLET), (false, 0), (false, 0)]⟩
/-- Local matrices. -/
def exBig : StokesCell Rat := ⟨[2, 0, 1], 8, fun i j => i + j, fun _ j => j, fun _ => 1, fun i => i⟩

example : exCfg.size = 8 ∧ FullTypes exCfg ∧ ∀ x ∈ [exBig], GoodStokesCell exCfg x := by
  refine ⟨rfl, ?_, ?_⟩
  · intro f hf
    simp only [exCfg, List.mem_cons, List.not_mem_nil, or_false] at hf
    rcases hf with rfl | rfl | rfl <;> simp
  · intro x hx
    simp only [List.mem_singleton] at hx
    subst hx
    exact ⟨by decide, rfl⟩
example : construct exCfg = .ok [0, 0, 1] := rfl

/-! ### C129: velocities and pressures -/

/-- `take_velocity` returns the unknowns of the cell and of its free faces and the projected boundary values. -/
theorem c129_velocity (s : Cfg) (t : List Nat) (ht : GoodTable s t) (proj : Nat → Nat → K) (sol : List K)
    (hs : sol.length = s.size) (c : Nat) (hc : c < s.nC) (fcs : List Nat) (hf : ∀ f ∈ fcs, f < s.faces.length) :
    takeVelocity s t proj sol c fcs = .ok ((dofsOf (tab s) (c :: fcs.map (s.nC + ·))).map
      (dofValue (tab s) (val s proj) fun j => sol.getD j 0)) :=
  takeVelocity_spec s t ht proj sol hs c hc fcs hf

/-- `take_pressure`. -/
theorem c129_pressure (s : Cfg) (proj : Nat → Nat → K) (sol : List K) (hs : sol.length = s.size) (c : Nat) (hc : c < s.nC) :
    takePressure s sol c = .ok ((dofsOf (tab s) [s.nC + s.faces.length + c]).map
      (dofValue (tab s) (val s proj) fun j => sol.getD j 0)) := takePressure_spec s proj sol hs c hc

/-- A solution of the assembled system. -/
def Solves (s : Cfg) (proj : Nat → Nat → K) (full : Bool) (cells : List (StokesCell K)) (sol : List K) : Prop :=
  sol.length = s.size ∧ ∃ A b, assembleStokes s proj full cells = .ok (A, b) ∧
    ∀ r < s.size, ∑ j ∈ range s.size, A r j * sol.getD j 0 = b r

theorem solves_res (s : Cfg) (hd : s.dim ≠ 0) (h : FullTypes s) (proj : Nat → Nat → K) (full : Bool)
    (cells : List (StokesCell K)) (hn : cells.length = s.nC) (hx : ∀ x ∈ cells, GoodStokesCell s x) (sol : List K)
    (hs : Solves s proj full cells sol) (y : Nat × Nat) (hy : IsFreeDof (tab s) y.1 y.2) :
    resFrom s full (dofValue (tab s) (val s proj) fun j => sol.getD j 0) 0 cells y = 0 := by
  obtain ⟨A, b, h1, h2⟩ := assembleStokes_spec s hd h proj full cells hn hx
  obtain ⟨_, A', b', h3, h4⟩ := hs
  rw [h1] at h3
  simp only [Outcome.ok.injEq, Prod.mk.injEq] at h3
  obtain ⟨rfl, rfl⟩ := h3
  rw [← h2 _ y hy, h4 _ (by rw [← numFree_tab]; exact VectorAsm.dofNumber_lt _ _ _ hy), sub_self]

/-- Momentum balance: the residuals of the cells vanish at every unknown velocity, for the values that `take_velocity` and
`take_pressure` return, when assembly and `take_velocity` use the same projection. -/
theorem c129_momentum_partial (s : Cfg) (hd : s.dim ≠ 0) (h : FullTypes s) (proj : Nat → Nat → K) (full : Bool)
    (cells : List (StokesCell K)) (hn : cells.length = s.nC) (hx : ∀ x ∈ cells, GoodStokesCell s x) (sol : List K)
    (hs : Solves s proj full cells sol) (y : Nat × Nat) (hy : IsFreeDof (tab s) y.1 y.2) :
    resFrom s full (dofValue (tab s) (val s proj) fun j => sol.getD j 0) 0 cells y = 0 :=
  solves_res s hd h proj full cells hn hx sol hs y hy

/-- Mass balance: `B v + λ m = 0` in every cell, for the velocity that `take_velocity` returns. -/
theorem c129_divergence_partial (s : Cfg) (hd : s.dim ≠ 0) (h : FullTypes s) (proj : Nat → Nat → K) (full : Bool)
    (cells : List (StokesCell K)) (hn : cells.length = s.nC) (hx : ∀ x ∈ cells, GoodStokesCell s x) (sol : List K)
    (hs : Solves s proj full cells sol) (c : Nat) (x : StokesCell K) (hc : cells[c]? = some x) (k : Nat) (hk : k < s.cbsB) :
    ∃ t v, construct s = .ok t ∧ takeVelocity s t proj sol c x.fcs = .ok v ∧
      (∑ j ∈ range x.size, x.B k j * v.getD j 0) + x.mult k * sol.getD s.mOff 0 = 0 := by
  obtain ⟨t, t1, t2⟩ := construct_spec s hd h
  have hlt : c < s.nC := by
    have := (List.getElem?_eq_some_iff.1 hc).1
    omega
  have hgx := hx x (List.mem_of_getElem? hc)
  refine ⟨t, _, t1, takeVelocity_spec s t t2 proj sol hs.1 c hlt x.fcs hgx.1, ?_⟩
  have hfree : IsFreeDof (tab s) (s.nC + s.faces.length + c) k := ⟨_, (tab_pressure s c hlt).1, hk, rfl⟩
  have h0 := solves_res s hd h proj full cells hn hx sol hs (_, k) hfree
  have h1 := resFrom_pressure s full (dofValue (tab s) (val s proj) fun j => sol.getD j 0) k hk cells 0 (by omega) hx c x hc
  simp only [Nat.zero_add] at h1
  rw [h0] at h1
  have hm : dofValue (tab s) (StokesAsm.val s proj) (fun j => sol.getD j 0) (s.nC + s.faces.length + s.nC, 0) =
      sol.getD s.mOff 0 := by
    have := (tab_mult s).2 0
    simp only [dofValue, (tab_mult s).1, Option.elim_some, Bool.false_eq_true, if_false, this, Nat.add_zero]
  rw [hm] at h1
  exact h1.symm

/-- The pressures that `take_pressure` returns have mean value zero, with the weights of the multiplier. -/
theorem c129_mean_partial (s : Cfg) (hd : s.dim ≠ 0) (h : FullTypes s) (proj : Nat → Nat → K) (full : Bool)
    (cells : List (StokesCell K)) (hn : cells.length = s.nC) (hx : ∀ x ∈ cells, GoodStokesCell s x) (sol : List K)
    (hs : Solves s proj full cells sol) :
    ∃ p : Nat → List K, (∀ c < s.nC, takePressure s sol c = .ok (p c)) ∧
      ∑ c ∈ range s.nC, ((cells[c]?).elim 0 fun x => ∑ k ∈ range s.cbsB, x.mult k * (p c).getD k 0) = 0 := by
  refine ⟨fun c => (dofsOf (tab s) [s.nC + s.faces.length + c]).map
    (dofValue (tab s) (StokesAsm.val s proj) fun j => sol.getD j 0), fun c hc => takePressure_spec s proj sol hs.1 c hc, ?_⟩
  have h0 := solves_res s hd h proj full cells hn hx sol hs (s.nC + s.faces.length + s.nC, 0)
    ⟨_, (tab_mult s).1, by simp, rfl⟩
  rw [resFrom_mult s full _ cells 0 (by omega) hx, meanFrom_eq, hn] at h0
  refine Eq.trans ?_ h0
  apply Finset.sum_congr rfl
  intro c hc
  cases cells[c]? with
  | none => rfl
  | some x =>
    apply Finset.sum_congr rfl
    intro k hk
    rw [pressure_getD s _ c (Finset.mem_range.1 hc) k (Finset.mem_range.1 hk), Nat.zero_add]

/-- Projection of `(x^2, 0)` on the constants of the face `[0, 1]`: the one-point rule of degree 0, and the rule of
degree 2, which is exact. -/
def square (extra : Nat) (_ i : Nat) : Rat := if i = 0 then (if extra < 2 then 1 / 4 else 1 / 3) else 0

/-- One cell, one Dirichlet face. -/
def squareCfg : Cfg := ⟨2, 1, 1, 1, 1, [(true, DIRICHLET)]⟩

/-- `assemble` of lowest order eliminates the projection with extra degree 0, `take_velocity` returns the one with extra
degree 2: the mass balance fails. -/
theorem c129_projection_violated :
    ∃ sol v, Solves squareCfg (square 0) false [exCell] sol ∧ takeVelocity squareCfg [0] (square 2) sol 0 [0] = .ok v ∧
      (∑ j ∈ range exCell.size, exCell.B 0 j * v.getD j 0) + exCell.mult 0 * sol.getD squareCfg.mOff 0 = 1 / 12 := by
  refine ⟨[0, 0, -1 / 4], [0, 1 / 3, 0], ⟨rfl, _, _, rfl, ?_⟩, by decide +kernel, by decide +kernel⟩
  decide +kernel

/-- The same for a clamped face: `take_velocity` returns the boundary function. -/
theorem c129_clamped_violated :
    takeVelocity clampedCfg [0] (fun _ _ => (5 : Rat)) [1, 2, 3] 0 [0] = .ok [1, 5, 5] := by decide +kernel

example : Solves squareCfg (square 2) true [exCell] [0, 0, -1 / 3] := by
  refine ⟨rfl, _, _, rfl, ?_⟩
  decide +kernel
example : takeVelocity exCfg [0, 0, 1] (fun _ i => (i : Rat) + 20) [1, 2, 3, 4, 5, 6, 7, 8] 0 [2, 0, 1] =
    .ok [1, 2, 5, 6, 20, 21, 3, 4] ∧ takePressure exCfg [1, 2, 3, 4, 5, 6, 7, 8] 0 = .ok [7] := by decide +kernel

end Verif.Props.StokesAsm
