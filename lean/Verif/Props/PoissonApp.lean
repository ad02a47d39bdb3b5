import Verif.Lemmas.PoissonApp
import Mathlib.Tactic.NormNum
/-!
C181: what `assemble` of the scriptable Poisson solver reads from the script.
C182: what `solve` of the scriptable Poisson solver returns.
-/
namespace Verif.Props.PoissonApp
open Verif.PoissonApp Verif.Spec Matrix

section Calls
variable {K : Type}

/-- First call of `assemble`: no undefined behaviour; a face is left out of the system exactly when the
script asks for a strong condition on it; the tables number the other faces; `sysfcs` is their number. -/
theorem c181_first (fs : List FaceInfo) (nc : Nat) (r : List Nat) (c : Call K) :
    ∃ s' sys t, assembleCall fs nc ⟨[], r⟩ c = .ok (s', sys, t) ∧
      s'.bi.length = fs.length ∧ sys.length = fs.length ∧
      (∀ (i : Nat) f, fs[i]? = some f → (sys[i]? = some false ↔ WantsStrong c.lua f)) ∧
      TablesMatch sys t ∧ t.expand.length = sysFaces sys := by
  refine ⟨_, _, _, assembleCall_eq fs nc _ c, by simp, by simp, ?_, (makeTables_spec _).1,
    (makeTables_spec _).2⟩
  intro i f hf
  rw [← inSystem_iff]
  have hi : i < fs.length := (List.getElem?_eq_some_iff.1 hf).1
  have : (List.map (faceCond c.lua) fs).take fs.length = fs.map (faceCond c.lua) := by
    rw [List.take_of_length_le]; simp
  simp only [List.nil_append]
  rw [this, List.getElem?_zipWith, hf, List.getElem?_map, List.getElem?_map, hf]
  simp

/-- The descriptors of the first call: the data of a marked face is asked for with its tag, the kind is
the one named in the table, the Robin coefficient is the one in the table; a face that is not marked
has no condition. -/
theorem c181_descriptor (fs : List FaceInfo) (nc : Nat) (r : List Nat) (c : Call K) :
    ∃ s' sys t, assembleCall fs nc ⟨[], r⟩ c = .ok (s', sys, t) ∧
      ∀ (i : Nat) f, fs[i]? = some f → ∃ b, s'.bi[i]? = some b ∧
        (f.isB = false → b.kind = .notABoundary) ∧
        (f.isB = true → b.number = f.tag ∧ b.internal = f.isInt ∧
          (b.kind = .undefined ↔ c.lua.type f.tag = none) ∧
          (b.kind = .dirichlet ↔ c.lua.type f.tag = some "dirichlet") ∧
          (b.kind = .neumann ↔ c.lua.type f.tag = some "neumann") ∧
          (b.kind = .robin ↔ c.lua.type f.tag = some "robin") ∧
          (b.kind = .jump ↔ c.lua.type f.tag = some "jump") ∧
          (b.kind = .robin → b.value = c.lua.value f.tag)) := by
  refine ⟨_, _, _, assembleCall_eq fs nc _ c, fun i f hf => ⟨faceCond c.lua f, ?_, ?_, ?_⟩⟩
  · simp [hf]
  · intro h; simp [faceCond, h]
  · intro h
    have hk : (faceCond c.lua f).kind = kindOf (c.lua.type f.tag) := by simp [faceCond, h, luaCond]
    obtain ⟨h1, h2, h3⟩ := kindOf_names (c.lua.type f.tag)
    rw [hk]
    refine ⟨by simp [faceCond, h, luaCond], by simp [faceCond, h], kindOf_undefined _,
      kindOf_dirichlet _, h1, h2, h3, fun hr => by simp [faceCond, h, luaCond, hr]⟩

/-- The degrees of the first call, and of every call without stabilization. -/
theorem c181_degrees (nc : Nat) (old : List Nat) (c : Call K) (h : old = [] ∨ c.useStabfree = true) :
    newRecdegs old nc c
      = (List.range nc).map (fun i => if c.useStabfree then c.cellDeg i else c.recdeg) := by
  unfold newRecdegs
  by_cases hs : c.useStabfree = true
  · simp [hs]
  · rcases h with h | h
    · subst h; simp [hs, vecResize]
    · exact absurd h hs

/-- Every later call works with the conditions of the first one: whatever the script has set in between,
the faces of the system and the tables are those of the first call; without `use_stabfree` so are the
degrees. -/
theorem c181_stale (fs : List FaceInfo) (nc : Nat) (c c' : Call K)
    (s : State K) (sys : List Bool) (t : Tables)
    (h : assembleCall fs nc State.init c = .ok (s, sys, t)) :
    ∃ s', assembleCall fs nc s c' = .ok (s', sys, t) ∧
      s'.bi.take fs.length = s.bi ∧
      (c'.useStabfree = false → s'.recdegs = s.recdegs) := by
  rw [assembleCall_eq] at h
  simp only [Outcome.ok.injEq, Prod.mk.injEq] at h
  obtain ⟨rfl, rfl, rfl⟩ := h
  refine ⟨⟨(State.init : State K).bi ++ fs.map (faceCond c.lua) ++ fs.map (faceCond c'.lua),
    newRecdegs (newRecdegs (State.init : State K).recdegs nc c) nc c'⟩, ?_, ?_, ?_⟩
  · rw [assembleCall_eq]
    have e : ((State.init : State K).bi ++ fs.map (faceCond c.lua) ++ fs.map (faceCond c'.lua)).take
        fs.length = ((State.init : State K).bi ++ fs.map (faceCond c.lua)).take fs.length := by
      rw [List.take_append_of_le_length (by simp [State.init])]
    simp only [e]
  · simp [State.init]
  · intro hs
    have hl : (newRecdegs (State.init : State K).recdegs nc c).length = nc := by
      unfold newRecdegs; split_ifs <;> simp [State.init, vecResize]
    generalize newRecdegs (State.init : State K).recdegs nc c = r at hl
    subst hl
    simp [newRecdegs, hs, vecResize]

/-- One outer face with tag 3. -/
def oneFace : List FaceInfo := [⟨true, 3, false⟩]
/-- A call with the given type on the boundary 3. -/
def callWith (s : String) (deg : Nat) : Call ℚ :=
  ⟨⟨fun n => if n = 3 then some s else none, fun _ => none⟩, deg, false, fun _ => 0⟩

/-- A script that calls `assemble` again after it changed the type of a boundary gets a system in which
the face is still left out, and after it changed the order the degrees are still the old ones. -/
theorem c181_violation : ¬ ∀ (fs : List FaceInfo) (nc : Nat) (c c' : Call ℚ) (s s' : State ℚ)
      (sys sys' : List Bool) (t t' : Tables),
      assembleCall fs nc State.init c = .ok (s, sys, t) →
      assembleCall fs nc s c' = .ok (s', sys', t') →
      ∀ (i : Nat) f, fs[i]? = some f → (sys'[i]? = some false ↔ WantsStrong c'.lua f) := by
  intro h
  obtain ⟨s, sys, t, h1, -, -, h2, -⟩ := c181_first oneFace 1 [] (callWith "dirichlet" 1)
  obtain ⟨s', h3, -⟩ := c181_stale oneFace 1 _ (callWith "neumann" 2) s sys t h1
  have h4 := h oneFace 1 _ _ s s' sys sys t t h1 h3 0 _ rfl
  have h5 := (h2 0 _ rfl).2 ⟨rfl, .inl rfl⟩
  have h6 := (h4.1 h5).2
  simp [callWith] at h6

/-- The same for the degrees. -/
theorem c181_violation_degrees : ¬ ∀ (nc : Nat) (c c' : Call ℚ),
    c.useStabfree = false → c'.useStabfree = false →
      newRecdegs (newRecdegs [] nc c) nc c' = List.replicate nc c'.recdeg := by
  intro h
  have := h 1 (callWith "dirichlet" 1) (callWith "dirichlet" 2) rfl rfl
  revert this
  decide

example : ∃ s' t, assembleCall oneFace 1 State.init (callWith "neumann" 1) = .ok (s', [true], t) ∧
    t = ⟨[some 0], [0]⟩ := ⟨_, _, rfl, by decide⟩
example : ∃ s' t, assembleCall oneFace 1 State.init (callWith "dirichlet" 1) = .ok (s', [false], t) ∧
    t = ⟨[none], []⟩ := ⟨_, _, rfl, by decide⟩

end Calls

section Solve
variable {K : Type} [Field K] {nT nF cb fbs : Nat}

/-- What `solve` returns: the face values agree between the cells, and together with the cell values
they solve the discrete problem in which *every* cell sees the jump of the trace. -/
theorem c182_solution (P : Prob K nT nF cb fbs) (hM : MarkedOnly P)
    (hE : ∀ T, IsUnit (P.elem T).A.toBlocks₁₁.det) (x : Fin nF → Fin fbs → K)
    (hx : SystemSolved P x) :
    ∃ uF : Fin nF → Fin fbs → K,
      (∀ T q, faceSol P (P.elem T) x q = uF ((P.elem T).face q.1) q.2) ∧
      PoissonAppSol P (fun _ => True) (paJump P) (fun T => cellSol P (P.elem T) x) uF := by
  refine ⟨globalFace P x, fun T q => by rw [faceSol_eq hM], ?_, ?_, ?_⟩
  · intro F hF i
    have : ¬ sysFace P F = true := by rw [sysFace_iff]; exact not_not.2 hF
    simp [globalFace, this]
  · intro T i
    rw [seen_all]
    exact cell_row hM _ (hE T) x i
  · intro F hF i
    refine Eq.trans ?_ (hx F ((sysFace_iff P F).2 hF) i)
    refine Finset.sum_congr rfl fun T _ => Finset.sum_congr rfl fun fi _ => ?_
    rw [seen_all, rowResidual_eq hM, lhs_inr]

/-- Conversely, every solution of that discrete problem comes from a solution of the system. -/
theorem c182_complete (P : Prob K nT nF cb fbs) (hM : MarkedOnly P)
    (hE : ∀ T, IsUnit (P.elem T).A.toBlocks₁₁.det) (uT : Fin nT → Fin cb → K) (uF : Fin nF → Fin fbs → K)
    (hu : PoissonAppSol P (fun _ => True) (paJump P) uT uF) :
    SystemSolved P uF ∧ ∀ T, cellSol P (P.elem T) uF = uT T := by
  have hg : globalFace P uF = uF := by
    funext F i
    by_cases h : sysFace P F = true
    · simp [globalFace, h]
    · have h' := h
      rw [sysFace_iff, not_not] at h'
      simp [globalFace, h, hu.strong F h' i]
  have hc : ∀ T, cellSol P (P.elem T) uF = uT T := by
    intro T
    have h1 := hu.cell T
    rw [← hg, seen_all] at h1
    have h2 := blocks_inl P (P.elem T) (Sum.elim (uT T) (tr P (P.elem T) uF))
    rw [Sum.elim_comp_inl, Sum.elim_comp_inr, lhs11] at h2
    have h3 : (lhs P (P.elem T) *ᵥ Sum.elim (uT T) (tr P (P.elem T) uF)) ∘ Sum.inl
        = (P.elem T).load := by
      funext i; exact (lhs_inl P _ _ i).trans (h1 i)
    rw [h3] at h2
    rw [cellSol_eq hM, h2, add_sub_cancel_right, mulVec_mulVec, nonsing_inv_mul _ (hE T), one_mulVec]
  refine ⟨?_, hc⟩
  intro F hF i
  refine Eq.trans ?_ (hu.face F ((sysFace_iff P F).1 hF) i)
  refine Finset.sum_congr rfl fun T _ => Finset.sum_congr rfl fun fi _ => ?_
  have := seen_all (P := P) (P.elem T) (uT T) uF
  rw [hg] at this
  rw [this, rowResidual_eq hM, lhs_inr, hc T]

/-- Without jump faces the result solves the discrete problem, whichever cells are the source. -/
theorem c182_partial (P : Prob K nT nF cb fbs) (hM : MarkedOnly P)
    (hE : ∀ T, IsUnit (P.elem T).A.toBlocks₁₁.det) (hJ : ∀ F, (P.bc F).kind ≠ .jump)
    (x : Fin nF → Fin fbs → K) (hx : SystemSolved P x)
    (src : Fin nT → Prop) [DecidablePred src] :
    ∃ uF : Fin nF → Fin fbs → K,
      (∀ T q, faceSol P (P.elem T) x q = uF ((P.elem T).face q.1) q.2) ∧
      PoissonAppSol P src (paJump P) (fun T => cellSol P (P.elem T) x) uF := by
  obtain ⟨uF, h1, h2⟩ := c182_solution P hM hE x hx
  have hz : paJump P = fun _ _ => 0 := by funext F i; simp [paJump, hJ F]
  have hs : ∀ (T : Fin nT) (u : Fin cb → K),
      paSeen (P.elem T) (src T) (paJump P) u uF = paSeen (P.elem T) True (paJump P) u uF := by
    intro T u; funext k; cases k <;> simp [paSeen, hz]
  refine ⟨uF, h1, h2.strong, fun T i => ?_, fun F hF i => ?_⟩
  · rw [hs]; exact h2.cell T i
  · simp only [hs]; exact h2.face F hF i

/-- The Dirichlet part of the jump data has no effect on the cells: for any other data on the jump
faces there is a solution of the new system with the same cell values. -/
theorem c182_jump_lost (P : Prob K nT nF cb fbs) (hM : MarkedOnly P) (d : Fin nF → Fin fbs → K)
    (hd : ∀ F, (P.bc F).kind ≠ .jump → d F = P.dir F) (x : Fin nF → Fin fbs → K)
    (hx : SystemSolved P x) :
    ∃ x', SystemSolved { P with dir := d } x' ∧
      ∀ T, cellSol { P with dir := d } (P.elem T) x' = cellSol P (P.elem T) x := by
  have hM' : MarkedOnly { P with dir := d } := hM
  let x' : Fin nF → Fin fbs → K := fun F i => x F i + paJump P F i - paJump { P with dir := d } F i
  have htr : traceOf { P with dir := d } x' = traceOf P x := by
    funext F i
    by_cases hj : (P.bc F).kind = .jump
    · have h1 : sysFace P F = true := by
        rw [sysFace_iff]; rintro ⟨-, h | ⟨h, -⟩⟩ <;> rw [hj] at h <;> simp at h
      have h2 : sysFace { P with dir := d } F = true := h1
      simp [traceOf, globalFace, h1, h2, x']
    · have h3 : sysFace { P with dir := d } F = sysFace P F := rfl
      simp [traceOf, globalFace, h3, x', paJump, hj, hd F hj]
  have ht : ∀ E : Elem K nF cb fbs, tr { P with dir := d } E x' = tr P E x := by
    intro E; funext q; simp only [tr, htr]
  have hl : ∀ E : Elem K nF cb fbs, lhs { P with dir := d } E = lhs P E := fun _ => rfl
  have hc : ∀ E : Elem K nF cb fbs, cellSol { P with dir := d } E x' = cellSol P E x := by
    intro E; rw [cellSol_eq hM', cellSol_eq hM, ht, hl]
  refine ⟨x', ?_, fun T => hc _⟩
  intro F hF i
  refine Eq.trans ?_ (hx F hF i)
  refine Finset.sum_congr rfl fun T _ => Finset.sum_congr rfl fun fi _ => ?_
  rw [rowResidual_eq hM', rowResidual_eq hM]
  show (if (P.elem T).face fi = F then _ else _) = _
  rw [ht, hl, hc]
  rfl

/-! ### Two cells on a line, lowest order -/

/-- The lowest order operator on a cell of length 1: `(u_R-u_L)² + 2((u_L+u_R)/2-u_T)²`. -/
def unitOp : Matrix (Fin 1 ⊕ Fin 2 × Fin 1) (Fin 1 ⊕ Fin 2 × Fin 1) ℚ
  | .inl _, .inl _ => 2
  | .inl _, .inr _ => -1
  | .inr _, .inl _ => -1
  | .inr (a, _), .inr (b, _) => if a = b then 3 / 2 else -1 / 2

theorem unitOp_row (v : Fin 1 ⊕ Fin 2 × Fin 1 → ℚ) :
    (unitOp *ᵥ v) (.inl 0) = 2 * v (.inl 0) - v (.inr (0, 0)) - v (.inr (1, 0)) := by
  simp only [mulVec, dotProduct, Fintype.sum_sum_type, Fintype.sum_prod_type, Fin.sum_univ_two,
    Fin.sum_univ_one, unitOp]
  ring

/-- The cell between the faces `k` and `k+1`. -/
def unitCell (k : Fin 2) : Elem ℚ 3 1 1 where
  nfc := 2
  face := fun a => ⟨k + a, by omega⟩
  A := unitOp
  load := 0
  mass := fun _ => 1
  nDn := fun _ => 1
  neu := fun _ => 0

/-- Zero at both ends, the given condition with data 1 in the middle. -/
def twoCells (mid : BKind) : Prob ℚ 2 3 1 1 where
  elem := unitCell
  isB := fun _ => true
  bc := fun F => if F = 1 then ⟨mid, none, 8, true⟩ else ⟨.dirichlet, none, 1, false⟩
  dir := fun F _ => if F = 1 then 1 else 0

theorem twoCells_marked (mid : BKind) : MarkedOnly (twoCells mid) := by
  intro F h; simp [twoCells] at h

theorem unit_det (k : Fin 2) : IsUnit (unitCell k).A.toBlocks₁₁.det := by
  have : (unitCell k).A.toBlocks₁₁.det = 2 := by
    rw [det_fin_one]; rfl
  rw [this]; norm_num

/-- The unknown in the middle is -1. -/
def midSol (F : Fin 3) (_ : Fin 1) : ℚ := if F = 1 then -1 else 0

theorem mid_trace (T : Fin 2) : tr (twoCells .jump) (unitCell T) midSol = 0 := by
  have : ∀ F i, traceOf (twoCells .jump) midSol F i = 0 := by
    decide +kernel
  funext q; exact this _ _

theorem mid_cell (T : Fin 2) : cellSol (twoCells .jump) (unitCell T) midSol = 0 := by
  rw [cellSol_eq (twoCells_marked _), mid_trace]
  have : (unitCell T).load = 0 := rfl
  simp [this]

theorem mid_solved : SystemSolved (twoCells .jump) midSol := by
  intro F hF i
  refine Finset.sum_eq_zero fun T _ => Finset.sum_eq_zero fun fi _ => ?_
  rw [rowResidual_eq (twoCells_marked _)]
  have h0 : (Sum.elim (cellSol (twoCells .jump) ((twoCells .jump).elem T) midSol)
      (tr (twoCells .jump) ((twoCells .jump).elem T) midSol)) = 0 := by
    show Sum.elim (cellSol (twoCells .jump) (unitCell T) midSol)
      (tr (twoCells .jump) (unitCell T) midSol) = 0
    rw [mid_cell, mid_trace]; funext k; cases k <;> rfl
  rw [h0, mulVec_zero]
  have : paFlux (twoCells .jump) ((twoCells .jump).elem T) fi i = 0 := by
    unfold paFlux; split_ifs <;> rfl
  simp [this]

/-- With a jump of 1 between the two cells the solver returns zero in both, which does not solve the
problem with the jump seen from the first cell. -/
theorem c182_violation : ¬ ∀ (P : Prob ℚ 2 3 1 1) (src : Fin 2 → Prop) [DecidablePred src]
      (x : Fin 3 → Fin 1 → ℚ), MarkedOnly P → (∀ T, IsUnit (P.elem T).A.toBlocks₁₁.det) →
      SystemSolved P x →
      ∃ uF, PoissonAppSol P src (paJump P) (fun T => cellSol P (P.elem T) x) uF := by
  intro h
  obtain ⟨uF, hu⟩ := h (twoCells .jump) (fun T => T = 0) midSol (twoCells_marked _) unit_det mid_solved
  have e : (fun T => cellSol (twoCells .jump) ((twoCells .jump).elem T) midSol) = fun _ => 0 := by
    funext T; exact mid_cell T
  rw [e] at hu
  have s0 := hu.strong 0 ⟨rfl, .inl rfl⟩ 0
  have s2 := hu.strong 2 ⟨rfl, .inl rfl⟩ 0
  have c0 : (unitOp *ᵥ paSeen (unitCell 0) ((0 : Fin 2) = 0) (paJump (twoCells .jump)) 0 uF) (.inl 0) = 0 :=
    hu.cell 0 0
  have c1 : (unitOp *ᵥ paSeen (unitCell 1) ((1 : Fin 2) = 0) (paJump (twoCells .jump)) 0 uF) (.inl 0) = 0 :=
    hu.cell 1 0
  have j0 : paJump (twoCells .jump) 0 0 = 0 := by decide +kernel
  have j1 : paJump (twoCells .jump) 1 0 = 1 := by decide +kernel
  have c0' : 2 * 0 - (uF 0 0 + paJump (twoCells .jump) 0 0) - (uF 1 0 + paJump (twoCells .jump) 1 0) = 0 :=
    (unitOp_row _).symm.trans c0
  have c1' : 2 * 0 - (uF 1 0 + 0) - (uF 2 0 + 0) = 0 := (unitOp_row _).symm.trans c1
  have s0' : uF 0 0 = 0 := s0
  have s2' : uF 2 0 = 0 := s2
  rw [j0, j1] at c0'
  linarith

/-- The problem with the jump seen from the first cell does have a solution: 1/4 and -1/4. -/
theorem two_jump : PoissonAppSol (twoCells .jump) (fun T => T = 0) (paJump (twoCells .jump))
    (fun T _ => if T = 0 then 1 / 4 else -1 / 4) (fun F _ => if F = 1 then -1 / 2 else 0) := by
  refine ⟨?_, ?_, ?_⟩
  · intro F hF i
    fin_cases F <;> simp [twoCells, StrongFace] at hF ⊢
  · decide +kernel
  · intro F hF i
    have hF1 : F = 1 := by
      by_contra h; exact hF ⟨rfl, .inl (by simp [twoCells, h])⟩
    subst hF1
    revert i
    decide +kernel

example : ∃ x, SystemSolved (twoCells .jump) x := ⟨midSol, mid_solved⟩

/-- The strong condition in the middle: the data 1 on the face, 1/2 in both cells. -/
example : SystemSolved (twoCells .dirichlet) (fun F _ => if F = 1 then 1 else 0) ∧
    ∀ T, cellSol (twoCells .dirichlet) (unitCell T) (fun F _ => if F = 1 then 1 else 0)
      = fun _ => 1 / 2 := by
  refine c182_complete (twoCells .dirichlet) (twoCells_marked _) unit_det (fun _ _ => 1 / 2) _ ⟨?_, ?_, ?_⟩
  · intro F hF i
    fin_cases F <;> simp [twoCells]
  · decide +kernel
  · intro F hF
    refine absurd ⟨rfl, .inl ?_⟩ hF
    fin_cases F <;> simp [twoCells]

end Solve
end Verif.Props.PoissonApp
