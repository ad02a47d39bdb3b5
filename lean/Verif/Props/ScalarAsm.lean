import Verif.Lemmas.ScalarAsm
import Verif.Props.BoundaryCond
/-!
Properties of the scalar assemblers with Dirichlet, Neumann and Robin conditions: the system (C130) and its solution (C131).
`primal = true` is `scalar_primal_hho_assembler`, `false` is `diffusion_condensed_assembler`.
-/
namespace Verif.Props.ScalarAsm
open Finset Verif.BoundaryCond Verif.Assembly Verif.Spec Verif.ScalarAsm

variable {K : Type} [CommRing K]

/-! ### C130: the system -/

/-- Residual of the assembled system, with an exact Dirichlet counter for `scalar_primal_hho_assembler`. -/
theorem c130_residual_partial (primal withNeu : Bool) (s : Bnd) (hs : GoodBnd s)
    (hd : primal = true → s.nbDir = s.dir.count true)
    (hp : withNeu = true → primal = true ∨ 0 < s.nbNeu) (D : ScalarData K) (cells : List (ScalarCell K))
    (hc : ∀ c ∈ cells, GoodCell s c) :
    ∃ A b, system primal withNeu s D cells = .ok (s.fbs * s.dir.count false, A, b) ∧
      ∀ (u : Nat → K) (y : Nat × Nat), IsFreeDof (tab s) y.1 y.2 →
        (∑ j ∈ range (s.fbs * s.dir.count false), A (dofNumber (tab s) y.1 y.2) j * u j) - b (dofNumber (tab s) y.1 y.2) =
          fullRes withNeu s D cells (dofValue (tab s) D.proj u) y := by
  rw [← numFree_tab]
  exact system_spec primal withNeu s hs hd hp D cells hc

/-- Boundary terms face by face: a Neumann face subtracts its term, a Robin face adds `M u - g`, other faces nothing. -/
theorem c130_boundary_terms (s : Bnd) (g : Nat → Nat → K) (M : Nat → Nat → Nat → K) (w : Nat × Nat → K) (y : Nat × Nat)
    (hn : s.bfaces.Nodup) (hy : y.1 ∈ s.bfaces) :
    neumannRes s g s.bfaces y = (if flag s (·.neu) y.1 then -g y.1 y.2 else 0) ∧
    robinRes s g M s.bfaces w y =
      if flag s (·.rob) y.1 then (∑ j ∈ range s.fbs, M y.1 y.2 j * w (y.1, j)) - g y.1 y.2 else 0 := by
  have key : ∀ (F : Nat → K) (l : List Nat), l.Nodup → y.1 ∈ l → (∀ f ∈ l, f ≠ y.1 → F f = 0) → (l.map F).sum = F y.1 := by
    intro F l
    induction l with
    | nil => intro _ h; simp at h
    | cons f l ih =>
      intro hn hm h0
      rw [List.nodup_cons] at hn
      rw [List.map_cons, List.sum_cons]
      by_cases hf : f = y.1
      · rw [sum_zero l F fun f' hf' => h0 f' (by simp [hf']) (fun e => hn.1 (by rw [hf, ← e]; exact hf')), hf, add_zero]
      · rw [h0 f (by simp) hf, zero_add]
        refine ih hn.2 ?_ fun f' hf' => h0 f' (by simp [hf'])
        rcases List.mem_cons.1 hm with h | h
        · exact absurd h.symm hf
        · exact h
  constructor
  · rw [neumannRes, key _ _ hn hy (fun f _ hf => by simp [neumannTerm, hf])]
    simp [neumannTerm]
  · rw [robinRes, key _ _ hn hy (fun f _ hf => by simp [robinTerm, hf])]
    simp [robinTerm]

/-- A Neumann face that is also a Dirichlet or Robin face is refused. -/
theorem c130_neumann_conflict (primal : Bool) (s : Bnd) (hb : ∀ f ∈ s.bfaces, f < s.faces.length) (hn : 0 < s.nbNeu)
    (t : List Nat) (ht : GoodTable s t) (g : Nat → Nat → K) (f : Nat) (hm : f ∈ s.bfaces) (x : ScalarFace)
    (hx : s.faces[f]? = some x) (hN : x.neu = true) (hc : x.dir = true ∨ x.rob = true) :
    ∃ e, imposeNeumann primal s t g = .throws e := by
  rw [imposeNeumann, if_pos hn]
  exact neumannLoop_throws s t ht g s.bfaces hb f hm x hx hN hc

/-- A Robin face that is also a Dirichlet or Neumann face is refused. -/
theorem c130_robin_conflict (s : Bnd) (hb : ∀ f ∈ s.bfaces, f < s.faces.length) (hn : 0 < s.nbRob)
    (t : List Nat) (ht : GoodTable s t) (g : Nat → Nat → K) (M : Nat → Nat → Nat → K) (f : Nat) (hm : f ∈ s.bfaces)
    (x : ScalarFace) (hx : s.faces[f]? = some x) (hR : x.rob = true) (hc : x.dir = true ∨ x.neu = true) :
    ∃ e, imposeRobin s t g M = .throws e := by
  rw [imposeRobin, if_pos hn]
  exact robinLoop_throws s t ht g M s.bfaces hb f hm x hx hR hc

/-- The table of the constructors is the one meant above. -/
theorem c130_table_partial (primal : Bool) (s : Bnd) (h : primal = true → s.nbDir = s.dir.count true) :
    ∃ t, construct primal s = .ok (t, s.fbs * s.dir.count false) ∧ GoodTable s t := by
  rw [← numFree_tab]
  exact construct_spec primal s h

/-- The counters read from the boundary object satisfy the hypotheses, whatever the history of calls, if no two calls set a
Dirichlet condition on the same face. -/
theorem c130_counts_partial {C F Fn : Type} [LinearOrder F] (m : MeshTopo.Mesh C F) (hw : MeshTopo.WF m) (one : K) (h : List (Call K Fn))
    (b : Nat)
    (hd : h.Pairwise (fun c c' => ∀ i, ¬ (concerns m .dirichlet i c = true ∧ concerns m .dirichlet i c' = true))) :
    ∃ st, run m (init m one) h = .ok st ∧ (bndOf m st b).nbDir = (bndOf m st b).dir.count true ∧
      ((bndOf m st b).nbNeu = 0 → ∀ x ∈ (bndOf m st b).faces, x.neu = false) ∧
      ((bndOf m st b).nbRob = 0 → ∀ x ∈ (bndOf m st b).faces, x.rob = false) ∧
      ∀ f ∈ (bndOf m st b).bfaces, f < (bndOf m st b).faces.length := by
  obtain ⟨st, h1, hn⟩ := c18_count_partial m hw one h .dirichlet hd
  obtain ⟨st', h1', hf⟩ := c17_last_wins m hw one h
  have e : st = st' := by rw [h1] at h1'; simpa using h1'
  subst e
  have hflag : ∀ k i, i < m.faces.length → (entryOf st k i).flag = h.any (concerns m k i) := by
    intro k i hi
    have h2 := (hf k i hi).1
    simp only [isFace, entryAt] at h2
    rw [entryOf, List.getD_eq_getElem?_getD]
    cases hg : (st.st k).faces[i]? with
    | none => rw [hg] at h2; simp [Outcome.bind] at h2
    | some e => rw [hg] at h2; simpa using h2
  have hzero : ∀ k, nbFaces st k = 0 → ∀ i < m.faces.length, (entryOf st k i).flag = false := by
    intro k h0 i hi
    obtain ⟨st', h1', hc⟩ := c18_count_is_coverage m hw one h k
    have e : st = st' := by rw [h1] at h1'; simpa using h1'
    subst e
    rw [h0] at hc
    rw [hflag k i hi, Bool.eq_false_iff]
    intro hany
    obtain ⟨c, c1, c2⟩ := List.any_eq_true.1 hany
    have hsum : ∀ (l : List Nat) (x : Nat), x ∈ l → x ≤ l.sum := by
      intro l x hx
      induction l with
      | nil => simp at hx
      | cons y l ih =>
        rw [List.sum_cons]
        rcases List.mem_cons.1 hx with rfl | hx
        · omega
        · have := ih hx
          omega
    have := hsum _ _ (List.mem_map_of_mem (f := fun c => (List.range m.faces.length).countP (fun i => concerns m k i c)) c1)
    rw [← hc] at this
    have hpos : 0 < (List.range m.faces.length).countP (fun i => concerns m k i c) :=
      List.countP_pos_iff.2 ⟨i, List.mem_range.2 hi, c2⟩
    omega
  refine ⟨st, h1, ?_, ?_, ?_, ?_⟩
  · have : (bndOf m st b).dir = (List.range m.faces.length).map fun i => (entryOf st .dirichlet i).flag := by
      simp [Bnd.dir, bndOf]
    rw [this, List.count_eq_countP, List.countP_map]
    refine Eq.trans hn (List.countP_congr fun i hi => ?_)
    rw [(hf .dirichlet i (List.mem_range.1 hi)).1]
    simp only [Function.comp, hflag _ i (List.mem_range.1 hi)]
    simp
  · intro h0 x hx
    simp only [bndOf, List.mem_map, List.mem_range] at hx
    obtain ⟨i, hi, rfl⟩ := hx
    exact hzero .neumann h0 i hi
  · intro h0 x hx
    simp only [bndOf, List.mem_map, List.mem_range] at hx
    obtain ⟨i, hi, rfl⟩ := hx
    exact hzero .robin h0 i hi
  · intro f hf
    simp only [bndOf, List.mem_filter, List.mem_range] at hf
    simpa [bndOf] using hf.1

/-- Setting the Dirichlet condition of one boundary twice makes the constructor of `scalar_primal_hho_assembler` fail: its
counter then says 2 (C18). The other class counts the faces itself. -/
theorem c130_count_violated :
    ((run exB (init exB (1 : Nat)) [.add .dirichlet DIRICHLET 7 "a", .add .dirichlet DIRICHLET 7 "b"]).bind fun st =>
      construct true (bndOf exB st 1)) = .ub "assert: compressed_offset == num_other_faces" ∧
    ((run exB (init exB (1 : Nat)) [.add .dirichlet DIRICHLET 7 "a", .add .dirichlet DIRICHLET 7 "b"]).bind fun st =>
      construct false (bndOf exB st 1)) = .ok ([0, 0, 1], 2) := by decide +kernel

/-- Four faces: Dirichlet, Neumann, Robin, inner. -/
def exBnd : Bnd := ⟨[⟨true, DIRICHLET, false, FREE, false⟩, ⟨false, NOTHING, true, NEUMANN, false⟩,
  ⟨false, NOTHING, false, FREE, true⟩, ⟨false, NOTHING, false, FREE, false⟩], 1, 1, 1, [0, 1, 2], 2⟩
/-- A cell with three of them. -/
def exC : ScalarCell Rat := ⟨[3, 0, 2], 6, fun i j => i + j, fun i => i⟩
/-- Data. -/
def exD : ScalarData Rat := ⟨fun _ i => i + 1, fun _ i => i + 10, fun _ i => i + 20, fun _ i j => if i = j then 2 else 0⟩

example : GoodBnd exBnd ∧ exBnd.nbDir = exBnd.dir.count true ∧ ∀ c ∈ [exC], GoodCell exBnd c := by
  refine ⟨⟨by simp [exBnd], by simp [exBnd], by decide, by decide, by decide⟩, rfl, ?_⟩
  intro c hc
  simp only [List.mem_singleton] at hc
  subst hc
  exact ⟨by decide, rfl⟩
example : ((system true true exBnd exD [exC]).bind fun r => .ok (r.1, (List.range 6).map r.2.2, r.2.1 2 2, r.2.1 4 2)) =
    .ok (6, [10, 11, 4, 3, -8, -10], 10, 4) := by decide +kernel
example : ∃ e, imposeNeumann true ⟨[⟨true, DIRICHLET, true, NEUMANN, false⟩], 1, 1, 0, [0], 1⟩ [0] (fun _ _ => (1 : Rat)) =
    .throws e := ⟨_, rfl⟩

/-! ### C131: the solution -/

/-- `take_local_solution`. -/
theorem c131_local (s : Bnd) (t : List Nat) (ht : GoodTable s t) (proj : Nat → Nat → K) (sol : List K)
    (hs : sol.length = s.fbs * s.dir.count false) (fcs : List Nat) (hf : ∀ f ∈ fcs, f < s.faces.length) :
    takeFaces s t proj sol fcs = .ok ((dofsOf (tab s) fcs).map (dofValue (tab s) proj fun j => sol.getD j 0)) :=
  takeFaces_spec s t ht proj sol (by rw [numFree_tab]; exact hs) fcs hf

/-- `expand_solution`: the same for all faces; another size of the solution fails the assertion. -/
theorem c131_expand (s : Bnd) (t : List Nat) (ht : GoodTable s t) (proj : Nat → Nat → K) (sol : List K) :
    expand s t (s.fbs * s.dir.count false) proj sol =
      if sol.length = s.fbs * s.dir.count false then
        .ok ((dofsOf (tab s) (List.range s.faces.length)).map (dofValue (tab s) proj fun j => sol.getD j 0))
      else .ub "assert: solution.size() == system_size" := by
  by_cases h : sol.length = s.fbs * s.dir.count false
  · rw [expand, if_pos h, if_pos h]
    exact c131_local s t ht proj sol h _ (by simp)
  · rw [expand, if_neg h, if_neg h]

/-- The values of a solution make the residual vanish at every unknown, with the Neumann and Robin terms. -/
theorem c131_solved_partial (primal withNeu : Bool) (s : Bnd) (hs : GoodBnd s)
    (hd : primal = true → s.nbDir = s.dir.count true)
    (hp : withNeu = true → primal = true ∨ 0 < s.nbNeu) (D : ScalarData K) (cells : List (ScalarCell K))
    (hc : ∀ c ∈ cells, GoodCell s c) (N : Nat) (A : Nat → Nat → K) (b : Nat → K)
    (h : system primal withNeu s D cells = .ok (N, A, b)) (u : Nat → K)
    (hu : ∀ r < N, ∑ j ∈ range N, A r j * u j = b r) (y : Nat × Nat) (hy : IsFreeDof (tab s) y.1 y.2) :
    fullRes withNeu s D cells (dofValue (tab s) D.proj u) y = 0 := by
  obtain ⟨A', b', h1, h2⟩ := system_spec primal withNeu s hs hd hp D cells hc
  rw [h] at h1
  simp only [Outcome.ok.injEq, Prod.mk.injEq] at h1
  obtain ⟨rfl, rfl, rfl⟩ := h1
  rw [← h2 u y hy, hu _ (VectorAsm.dofNumber_lt _ _ _ hy), sub_self]

/-- Conversely, values with vanishing residual and the prescribed boundary values are a solution. -/
theorem c131_converse_partial (primal withNeu : Bool) (s : Bnd) (hs : GoodBnd s)
    (hd : primal = true → s.nbDir = s.dir.count true)
    (hp : withNeu = true → primal = true ∨ 0 < s.nbNeu) (D : ScalarData K) (cells : List (ScalarCell K))
    (hc : ∀ c ∈ cells, GoodCell s c) (N : Nat) (A : Nat → Nat → K) (b : Nat → K)
    (h : system primal withNeu s D cells = .ok (N, A, b)) (u : Nat → K)
    (hu : ∀ y : Nat × Nat, IsFreeDof (tab s) y.1 y.2 → fullRes withNeu s D cells (dofValue (tab s) D.proj u) y = 0) :
    ∀ r < N, ∑ j ∈ range N, A r j * u j = b r := by
  obtain ⟨A', b', h1, h2⟩ := system_spec primal withNeu s hs hd hp D cells hc
  rw [h] at h1
  simp only [Outcome.ok.injEq, Prod.mk.injEq] at h1
  obtain ⟨rfl, rfl, rfl⟩ := h1
  intro r hr
  obtain ⟨f, i, hfi, rfl⟩ := VectorAsm.dofNumber_surj _ r hr
  have := h2 u (f, i) hfi
  rw [hu (f, i) hfi, sub_eq_zero] at this
  exact this

example : expand exBnd [0, 0, 1, 2] 6 exD.proj [1, 2, 3, 4, 5, 6] = .ok [1, 2, 1, 2, 3, 4, 5, 6] := by decide +kernel

end Verif.Props.ScalarAsm
